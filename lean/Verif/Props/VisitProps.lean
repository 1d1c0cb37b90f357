import Verif.Lemmas.Traverse
import Verif.Lemmas.Krfl
import Verif.Props.RoundTripProps
/-!
# C49: visitors reach every child
-/
set_option autoImplicit false
namespace Treeno.Props
open Spec

/-- **C49, partial.** A node that its constructors accepted hands every child to the visitor exactly once, and nothing
else, if its class is one of those that leave nothing out (`Spec.covered`).  Missing: SELECT queries, LISTAGG,
QDIGEST_AGG, aggregate functions with ORDER BY, FILTER or OVER, other queries with ORDER BY or WITH, and joins without a
condition; for these it is false, see below. -/
theorem C49_children_partial (n : Node) (hn : n.Accepted) (hc : covered n.obj = true) :
    ∃ l, n.obj.visit = .ok l ∧ l.Perm (children n.obj) :=
  handed_node n hn hc

/-- **C49 (whole trees), partial.** A visitor that goes on with every node it is handed meets every node of the tree
exactly once. -/
theorem C49_traversal_partial (n : Node) (hn : n.Accepted) (hc : ∀ o ∈ nodes n.obj, covered o = true) (fuel : Nat)
    (hf : n.obj.depth ≤ fuel) : ∃ l, n.obj.collect fuel = .ok l ∧ l.Perm (nodes n.obj) := by
  have e : nodesTo fuel n.obj = nodes n.obj := nodesTo_enough _ _ _ hf (Nat.le_refl _)
  obtain ⟨l, h, hp⟩ := collect_perm fuel n.obj hf ⟨n, hn, rfl⟩ (e ▸ hc)
  exact ⟨l, h, e ▸ hp⟩

/-- Every child is itself a node that its constructors accepted. -/
theorem C49_closed (n : Node) (hn : n.Accepted) (k : Obj) (hk : k ∈ children n.obj) : ∃ m : Node, m.Accepted ∧ k = m.obj :=
  gs_node n hn k hk

theorem filter_children {o : Obj} : ∀ k ∈ children o, isNode k = true := by
  intro k hk
  cases o with
  | inst c as =>
    obtain ⟨⟨_, v⟩, _, hk⟩ := List.mem_flatMap.mp hk
    have hk : k ∈ held v := hk
    cases v with
    | list l => exact (List.mem_filter.mp hk).2
    | dict d => exact (List.mem_filter.mp hk).2
    | inst c as =>
      have h : k ∈ (if isNode (.inst c as) = true then [Obj.inst c as] else []) := hk
      split at h
      · rw [List.mem_singleton.mp h]; assumption
      · exact absurd h nofun
    | _ => exact absurd hk nofun
  | _ => exact absurd hk nofun

theorem hands_handed {o : Obj} (h : Handed o) : Hands o [] := by
  obtain ⟨l, hv, hl⟩ := h
  refine ⟨l, hv, ?_⟩
  rw [List.append_nil, List.filter_eq_self.mpr (fun k hk => filter_children k (hl.mem_iff.mp hk))]
  exact hl

theorem perm_rot (a b c : List Obj) : (a ++ (b ++ c)).Perm (c ++ (a ++ b)) := by
  rw [← List.append_assoc]
  exact List.perm_append_comm

/-- What the nodes of the remaining classes leave out. -/
theorem hands_query (q : Query) : ∃ m, Hands q.obj m := by
  obtain ⟨b, off, lim, ob, w⟩ := q
  have hk : ∀ k ∈ b.kids, isNode k = true := by
    intro k hk
    refine filter_children (o := (Query.mk b off lim ob w).obj) k ?_
    rw [query_children]
    exact List.mem_append.mpr (.inr (List.mem_append.mpr (.inr hk)))
  by_cases hb : ∀ items fr wh gb hv d wins, b ≠ .select items fr wh gb hv d wins
  · refine ⟨Ord.objs ob ++ Named.objs w, _, other_visit b hb off lim ob w, ?_⟩
    rw [query_children, List.filter_eq_self.mpr hk]
    exact (perm_rot _ _ _).symm
  · cases b
    case select items fr wh gb hv d wins =>
      refine ⟨Ord.objs ob ++ (Named.objs w ++ Expr.objs items), _, select_visit items fr wh gb hv d wins off lim ob w, ?_⟩
      rw [query_children, List.filter_cons_of_neg (by exact nofun)]
      have hk : ∀ k ∈ (optKid Rel.obj fr ++ (optKid Expr.obj wh ++ (optKid GroupBy.obj gb ++ (optKid Expr.obj hv ++ wins.map fun nw => nw.2.obj)))),
          isNode k = true := fun k h => hk k (List.mem_append.mpr (.inr h))
      rw [List.filter_eq_self.mpr hk]
      show List.Perm _ (Ord.objs ob ++ (Named.objs w ++ (Expr.objs items ++ _)))
      rw [← List.append_assoc (Named.objs w)]
      exact (perm_rot _ _ _).symm
    all_goals exact absurd nofun hb

theorem hands_expr (e : Expr) (h : ∃ t, e.check = .ok t) (l : List Obj) (hv : e.obj.visit = .ok l) : ∃ m, Hands e.obj m := by
  cases hc : covered e.obj with
  | true => exact ⟨[], hands_handed (handed_expr e h hc)⟩
  | false =>
    cases e
    case query q => exact hands_query q
    case agg f as ob fl w ign =>
      obtain ⟨t, h⟩ := h
      rw [Expr_check_agg] at h
      obtain ⟨ts, hs, h⟩ := bind_ok h
      obtain ⟨_, _, h⟩ := bind_ok h
      obtain ⟨_, _, h⟩ := bind_ok h
      obtain ⟨_, _, h⟩ := bind_ok h
      have ha : arityOk f.arity as.length = true := by
        split at h
        · exact nomatch h
        · exact checks_len as ts hs ▸ agg_arity h
      have hq : f ≠ .qdigestAgg := by
        rintro rfl
        rw [Expr_obj_agg] at hv
        rcases as with _ | ⟨a, _ | ⟨b, _ | ⟨c, _ | ⟨d, r⟩⟩⟩⟩
        case cons.cons.cons.cons => exact Bool.noConfusion (show false = true from ha)
        all_goals exact nomatch hv
      obtain ⟨l, hv, hl⟩ := agg_visit f as ob fl w ign ha hq
      refine ⟨Ord.objs ob ++ (optKid Expr.obj fl ++ optKid Win.obj w), l, hv, ?_⟩
      have hn : ∀ k ∈ l, isNode k = true := fun k hk => node_objs as k (hl.mem_iff.mp hk)
      rw [agg_children, List.filter_eq_self.mpr hn, ← List.append_assoc (optKid Expr.obj fl)]
      exact (hl.append_right _).trans (perm_rot _ _ _).symm
    case listagg v sep ov ob =>
      refine ⟨Ord.objs ob, _, listagg_visit v sep ov ob, ?_⟩
      rw [listagg_children, List.filter_eq_self.mpr]
      · exact List.perm_append_comm
      · intro k hk
        refine filter_children (o := (Expr.listagg v sep ov ob).obj) k ?_
        rw [listagg_children]
        exact List.mem_append.mpr (.inr hk)
    all_goals exact Bool.noConfusion (show true = false from hc)

/-- **C49 (at most once).** No node hands a child over twice, or a node that is not its child: what it hands over,
apart from the SELECT list and the missing condition of a join, is a part of its children. -/
theorem C49_at_most_once (n : Node) (hn : n.Accepted) (l : List Obj) (hv : n.obj.visit = .ok l) :
    ∃ m, (l.filter isNode ++ m).Perm (children n.obj) := by
  have h : ∃ m, Hands n.obj m := by
    cases hc : covered n.obj with
    | true => exact ⟨[], hands_handed (handed_node n hn hc)⟩
    | false =>
      cases n with
      | expr e => exact hands_expr e hn l hv
      | query q => exact hands_query q
      | rel r =>
        cases r
        case query q => exact hands_query q
        case aliased n => cases n; exact Bool.noConfusion (show true = false from hc)
        all_goals exact Bool.noConfusion (show true = false from hc)
      | config t nat cr =>
        cases cr with
        | none => exact ⟨[], _, rfl, by cases t <;> exact .refl _⟩
        | some c =>
          have e : covered (Node.config t nat (some c)).obj = !(held c.obj).isEmpty := rfl
          rw [e, held_node (node_crit c)] at hc
          exact Bool.noConfusion (show true = false from hc)
      | ord o => cases o; exact Bool.noConfusion (show true = false from hc)
      | bound o => cases o <;> exact Bool.noConfusion (show true = false from hc)
      | win o => cases o; exact Bool.noConfusion (show true = false from hc)
      | grp o => cases o <;> exact Bool.noConfusion (show true = false from hc)
      | groupBy o => cases o; exact Bool.noConfusion (show true = false from hc)
      | crit o => cases o <;> exact Bool.noConfusion (show true = false from hc)
      | type o => cases o <;> exact Bool.noConfusion (show true = false from hc)
      | _ => exact Bool.noConfusion (show true = false from hc)
  obtain ⟨m, l', hv', hp⟩ := h
  rw [hv] at hv'
  cases hv'
  exact ⟨m, hp⟩

/-- The base visitor has a method for every child, except for the inputs of a lambda expression. -/
theorem C49_dispatch_partial (n : Node) (hn : n.Accepted) (k : Obj) (hk : k ∈ children n.obj) :
    k.dispatch = .ok () ∨ ∃ x : Str, k = (Expr.var x).obj := by
  obtain ⟨m, hm, rfl⟩ := gs_node n hn k hk
  clear hm
  cases m with
  | expr e =>
    cases e
    case var x => exact .inr ⟨x, rfl⟩
    case query q => obtain ⟨b, _, _, _, _⟩ := q; cases b <;> exact .inl rfl
    all_goals exact .inl rfl
  | query q => obtain ⟨b, _, _, _, _⟩ := q; cases b <;> exact .inl rfl
  | rel r =>
    cases r
    case query q => obtain ⟨b, _, _, _, _⟩ := q; cases b <;> exact .inl rfl
    case aliased n => cases n; exact .inl rfl
    all_goals exact .inl rfl
  | ord o => cases o; exact .inl rfl
  | bound o => cases o <;> exact .inl rfl
  | win o => cases o; exact .inl rfl
  | grp o => cases o <;> exact .inl rfl
  | groupBy o => cases o; exact .inl rfl
  | crit o => cases o <;> exact .inl rfl
  | type o => cases o <;> exact .inl rfl
  | _ => exact .inl rfl

/-- Only QDIGEST_AGG raises when it is visited, -/
theorem C49_returns (n : Node) (hn : n.Accepted) (e : Err) (hv : n.obj.visit = .error e) :
    ∃ as ob fl w ign, n = .expr (.agg .qdigestAgg as ob fl w ign) := by
  have no : ∀ m, ¬ Hands n.obj m := fun m ⟨l, h, _⟩ => by rw [hv] at h; exact nomatch h
  have nh : ¬ Handed n.obj := fun h => no [] (hands_handed h)
  cases hc : covered n.obj with
  | true => exact absurd (handed_node n hn hc) nh
  | false =>
    cases n with
    | expr x =>
      cases x
      case agg f as ob fl w ign =>
        by_cases hq : f = .qdigestAgg
        · subst hq; exact ⟨as, ob, fl, w, ign, rfl⟩
        · obtain ⟨t, h⟩ := hn
          rw [Expr_check_agg] at h
          obtain ⟨ts, hs, h⟩ := bind_ok h
          obtain ⟨_, _, h⟩ := bind_ok h
          obtain ⟨_, _, h⟩ := bind_ok h
          obtain ⟨_, _, h⟩ := bind_ok h
          have ha : arityOk f.arity as.length = true := by
            split at h
            · exact nomatch h
            · exact checks_len as ts hs ▸ agg_arity h
          obtain ⟨l, hl, _⟩ := agg_visit f as ob fl w ign ha hq
          rw [show (Node.expr (.agg f as ob fl w ign)).obj = (Expr.agg f as ob fl w ign).obj from rfl, hl] at hv
          exact nomatch hv
      case query q => obtain ⟨m, h⟩ := hands_query q; exact absurd h (no m)
      case listagg v sep ov ob =>
        rw [show (Node.expr (.listagg v sep ov ob)).obj = (Expr.listagg v sep ov ob).obj from rfl, listagg_visit] at hv
        exact nomatch hv
      all_goals exact Bool.noConfusion (show true = false from hc)
    | query q => obtain ⟨m, h⟩ := hands_query q; exact absurd h (no m)
    | rel r =>
      cases r
      case query q => obtain ⟨m, h⟩ := hands_query q; exact absurd h (no m)
      case aliased n => exact absurd (handed_rel (.aliased n) (by cases n; rfl)) nh
      all_goals exact Bool.noConfusion (show true = false from hc)
    | config t nat cr => cases cr <;> exact nomatch hv
    | ord o => cases o; exact Bool.noConfusion (show true = false from hc)
    | bound o => cases o <;> exact Bool.noConfusion (show true = false from hc)
    | win o => cases o; exact Bool.noConfusion (show true = false from hc)
    | grp o => cases o <;> exact Bool.noConfusion (show true = false from hc)
    | groupBy o => cases o; exact Bool.noConfusion (show true = false from hc)
    | crit o => cases o <;> exact Bool.noConfusion (show true = false from hc)
    | type o => cases o <;> exact Bool.noConfusion (show true = false from hc)
    | _ => exact Bool.noConfusion (show true = false from hc)
/-- and it always does. -/
theorem C49_qdigest_false (as ob fl w ign) (h : as.length ≤ 3) :
    (Expr.agg .qdigestAgg as ob fl w ign).obj.visit = .error .attributeError := by
  rw [Expr_obj_agg]
  rcases as with _ | ⟨a, _ | ⟨b, _ | ⟨c, _ | ⟨d, r⟩⟩⟩⟩
  case cons.cons.cons.cons => exact absurd h (by simp only [List.length_cons]; omega)
  all_goals rfl

/-! ## What the others leave out -/

/-- A SELECT query hands over its list of items as a whole, for which no visitor has a method; the items, ORDER BY and
WITH are missing. -/
theorem C49_select_false (items fr wh gb hv d wins off lim ob w) :
    ∃ r, (Query.mk (.select items fr wh gb hv d wins) off lim ob w).obj.visit = .ok (.list (Expr.objs items) :: r) ∧
      (Obj.list (Expr.objs items)).dispatch = .error .attributeError ∧
      r.length + items.length + ob.length + w.length = (children (Query.mk (.select items fr wh gb hv d wins) off lim ob w).obj).length := by
  refine ⟨_, select_visit items fr wh gb hv d wins off lim ob w, rfl, ?_⟩
  rw [query_children]
  simp only [List.length_append, QBody.kids, ords_map, nameds_map, objs_map, List.length_map]
  omega

/-- No other query hands over its ORDER BY and WITH. -/
theorem C49_orderby_false (b : QBody) (hb : ∀ items fr wh gb hv d wins, b ≠ .select items fr wh gb hv d wins) (off lim ob w)
    (h : ob ≠ [] ∨ w ≠ []) (l : List Obj) (hl : (Query.mk b off lim ob w).obj.visit = .ok l) :
    ¬ l.Perm (children (Query.mk b off lim ob w).obj) := by
  intro hp
  rw [other_visit b hb] at hl
  cases hl
  have e := hp.length_eq
  rw [query_children, List.length_append, List.length_append, ords_map, nameds_map, List.length_map, List.length_map] at e
  have : ob.length = 0 ∧ w.length = 0 := by omega
  rcases h with h | h
  · exact h (List.length_eq_zero_iff.mp this.1)
  · exact h (List.length_eq_zero_iff.mp this.2)

/-- No aggregate function hands over its ORDER BY, FILTER and OVER. -/
theorem C49_aggregate_false (f : Agg) (as : List Expr) (ob fl w ign) (ha : arityOk f.arity as.length = true)
    (h : ob ≠ [] ∨ fl.isSome = true ∨ w.isSome = true) (l : List Obj) (hl : (Expr.agg f as ob fl w ign).obj.visit = .ok l) :
    ¬ l.Perm (children (Expr.agg f as ob fl w ign).obj) := by
  intro hp
  by_cases hq : f = .qdigestAgg
  · subst hq
    rw [Expr_obj_agg] at hl
    rcases as with _ | ⟨a, _ | ⟨b, _ | ⟨c, _ | ⟨d, r⟩⟩⟩⟩
    case cons.cons.cons.cons => exact Bool.noConfusion (show false = true from ha)
    all_goals exact nomatch hl
  obtain ⟨l', hl', hp'⟩ := agg_visit f as ob fl w ign ha hq
  rw [hl] at hl'
  cases hl'
  have e := hp.length_eq
  rw [agg_children, List.length_append, List.length_append, List.length_append, hp'.length_eq, ords_map, List.length_map] at e
  have : ob.length = 0 ∧ (optKid Expr.obj fl).length = 0 ∧ (optKid Win.obj w).length = 0 := by omega
  rcases h with h | h | h
  · exact h (List.length_eq_zero_iff.mp this.1)
  · cases fl with
    | none => exact nomatch h
    | some _ => exact absurd this.2.1 (by exact nofun)
  · cases w with
    | none => exact nomatch h
    | some _ => exact absurd this.2.2 (by exact nofun)

/-- LISTAGG, which cannot be without ORDER BY, never hands it over. -/
theorem C49_listagg_false (v sep ov ob) (t : Ty) (h : (Expr.listagg v sep ov ob).check = .ok t) (l : List Obj)
    (hl : (Expr.listagg v sep ov ob).obj.visit = .ok l) : ¬ l.Perm (children (Expr.listagg v sep ov ob).obj) := by
  intro hp
  rw [listagg_visit] at hl
  cases hl
  have e := hp.length_eq
  rw [listagg_children, List.length_append, List.length_cons, ords_map, List.length_map] at e
  rw [Expr_check_listagg] at h
  obtain ⟨_, _, h⟩ := bind_ok h
  obtain ⟨_, _, h⟩ := bind_ok h
  have : ob.length = 0 := by omega
  rw [List.length_eq_zero_iff.mp this] at h
  exact nomatch h

/-- A join without a condition hands `None` to the visitor, for which there is no method. -/
theorem C49_cross_join_false (t : JoinType) (nat : Bool) :
    (Node.config t nat none).obj.visit = .ok [.none] ∧ Obj.none.dispatch = .error .attributeError := ⟨rfl, rfl⟩

/-- The base visitor has no method for the inputs of a lambda expression, which are handed to it. -/
theorem C49_lambda_false (x : Str) (b : Expr) (l : List Obj) (h : (Expr.lam [x] b).obj.visit = .ok l) :
    (Expr.var x).obj ∈ l ∧ (Expr.var x).obj.dispatch = .error .attributeError := by
  have e : (Expr.lam [x] b).obj.visit = .ok ([(Expr.var x).obj] ++ [b.obj]) := rfl
  rw [e] at h
  cases h
  exact ⟨List.mem_cons_self, rfl⟩

/-! ## Cases -/

/-- `CASE WHEN a LIKE 'x' ESCAPE 'y' THEN COALESCE(a, b) ELSE CORR(a, b) END IN (TABLE t)` -/
def tour : Expr :=
  .inQuery (.case none [(.like (col (c% "a")) (text (c% "x")) (some (text (c% "y"))), .func .coalesce [tcol (c% "t") (c% "a"), num 1])]
    (some (.agg .corr [col (c% "a"), col (c% "b")] [] none none false))) (.mk (.table { name := c% "t" }) none none [] [])

theorem C49_traversal_reached : (∃ t, tour.check = .ok t) ∧ (nodes tour.obj).all covered = true ∧ (nodes tour.obj).length = 16 ∧
    (∃ l, tour.obj.collect tour.obj.depth = .ok l ∧ l.Perm (nodes tour.obj)) := by
  have hc : (nodes tour.obj).all covered = true := by krfl
  have ha : tour.check = .ok .boolean := by krfl
  exact ⟨⟨_, ha⟩, hc, by krfl, C49_traversal_partial (.expr tour) ⟨_, ha⟩ (List.all_eq_true.mp hc) _ (Nat.le_refl _)⟩

/-- `a JOIN b ON a.x = b.x` -/
def tourJoin : Rel :=
  .join (.table { name := c% "a" }) (.table { name := c% "b" }) .inner false
    (some (.on (.bin .eq (tcol (c% "a") (c% "x")) (tcol (c% "b") (c% "x")))))
theorem C49_traversal_join : tourJoin.check = .ok () ∧ (nodes tourJoin.obj).all covered = true ∧ (nodes tourJoin.obj).length = 8 ∧
    (∃ l, tourJoin.obj.collect tourJoin.obj.depth = .ok l ∧ l.Perm (nodes tourJoin.obj)) := by
  have hc : (nodes tourJoin.obj).all covered = true := by krfl
  have ha : tourJoin.check = .ok () := by krfl
  exact ⟨ha, hc, by krfl, C49_traversal_partial (.rel tourJoin) ha (List.all_eq_true.mp hc) _ (Nat.le_refl _)⟩

end Treeno.Props
