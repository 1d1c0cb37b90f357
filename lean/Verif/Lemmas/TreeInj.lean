import Verif.Lemmas.TreeOf
import Verif.Spec.LitsOf
import Verif.Spec.TreeMap
/-! # The displayed tree determines the tree -/
namespace Treeno
open Spec

theorem Spec.Typed.l {a b : List (Option Scalar × Ty)} (h : Typed (a ++ b)) : Typed a := fun p hp => h p (List.mem_append_left _ hp)
theorem Spec.Typed.r {a b : List (Option Scalar × Ty)} (h : Typed (a ++ b)) : Typed b := fun p hp => h p (List.mem_append_right _ hp)

/-! ## Constants -/

def kindV : Scalar → Nat
  | .bool _ => 0 | .int _ => 1 | .float _ => 2 | .dec _ => 3 | .str _ => 4
def kindTy : Ty → Nat
  | .simple .boolean => 0
  | .simple .integer => 1
  | .simple .bigint => 1
  | .simple .double => 2
  | .decimal _ _ => 3
  | _ => 4
theorem kind_of : ∀ {v : Scalar} {t : Ty}, ofKind v t = true → kindTy t = kindV v
  | .bool _, .simple s, h => by cases s <;> first | rfl | exact Bool.noConfusion h
  | .int _, .simple s, h => by cases s <;> first | rfl | exact Bool.noConfusion h
  | .float _, .simple s, h => by cases s <;> first | rfl | exact Bool.noConfusion h
  | .dec _, .decimal _ _, _ => rfl
  | .str _, .varchar _, _ => rfl

theorem scalar_text {v w : Scalar} {t : Ty} (hv : ofKind v t = true) (hw : ofKind w t = true) (h : v.pyStr = w.pyStr) : v = w := by
  have hk : kindV v = kindV w := (kind_of hv).symm.trans (kind_of hw)
  cases v <;> cases w <;> first
    | exact absurd hk (Nat.ne_of_beq_eq_false rfl)
    | skip
  · rename_i a b; cases a <;> cases b <;> first | rfl | exact absurd h (by decide)
  · exact congrArg _ (intStr_inj h)
  · exact congrArg _ h
  · exact congrArg _ (Dec_str_inj h)
  · exact congrArg _ h

theorem slit {k : Str} (hk : hiddenKey k = false) {v w : Option Scalar} {t : Ty} (hv : Typed [(v, t)]) (hw : Typed [(w, t)])
    (h : shown k (.optScalar v) = shown k (.optScalar w)) : v = w := by
  cases v with
  | none => cases w with
    | none => rfl
    | some w => rw [Obj.optScalar, Obj.optScalar, shown_none, shown_scalar hk] at h; exact nomatch h
  | some v => cases w with
    | none => rw [Obj.optScalar, Obj.optScalar, shown_none, shown_scalar hk] at h; exact nomatch h
    | some w =>
      rw [Obj.optScalar, Obj.optScalar, shown_scalar hk, shown_scalar hk] at h
      rw [scalar_text (hv _ List.mem_cons_self v rfl) (hw _ List.mem_cons_self w rfl) (PTree.leaf.inj (Option.some.inj h))]

/-! ## Arguments -/

theorem shownAt_skip {k k' : Str} {v : Obj} {as : List (Str × Obj)} (h : k' ≠ k) : shownAt k ((k', v) :: as) = shownAt k as := by
  show (if k' == k then some v else dget k as).bind _ = (dget k as).bind _
  rw [if_neg (fun e => h (beq_iff_eq.mp e))]
theorem shownAt_here {k : Str} {v : Obj} {as : List (Str × Obj)} : shownAt k ((k, v) :: as) = shown k v := by
  show (if k == k then some v else dget k as).bind _ = _
  rw [if_pos (beq_self_eq_true k)]; rfl

theorem shownAt_type {k : Str} {r : Except Err Ty} {as : List (Str × Obj)} (h : c% "data_type" ≠ k) : shownAt k (typeAttr r :: as) = shownAt k as :=
  shownAt_skip h

def AllInst : List Obj → Prop
  | [] => True
  | x :: r => (∃ c as, x = .inst c as) ∧ AllInst r

theorem argTrees : ∀ (ns : List Str) (as bs : List Obj), ([] :: ns).Nodup → (∀ n ∈ ns, hiddenKey n = false) → AllInst as → AllInst bs →
    (∀ k ∈ [] :: ns, shownAt k (argAttrs ns as) = shownAt k (argAttrs ns bs)) → Obj.trees as = Obj.trees bs
  | [], [], [], _, _, _, _, _ => rfl
  | [], [], b :: bs, _, _, _, _, h => by
    have := h [] List.mem_cons_self
    rw [show argAttrs [] (b :: bs) = [([], .list (b :: bs))] from rfl, shownAt_here, shown_list rfl] at this
    exact nomatch this
  | [], a :: as, [], _, _, _, _, h => by
    have := h [] List.mem_cons_self
    rw [show argAttrs [] (a :: as) = [([], .list (a :: as))] from rfl, shownAt_here, shown_list rfl] at this
    exact nomatch this
  | [], a :: as, b :: bs, _, _, _, _, h => by
    have := h [] List.mem_cons_self
    rw [show argAttrs [] (a :: as) = [([], .list (a :: as))] from rfl, show argAttrs [] (b :: bs) = [([], .list (b :: bs))] from rfl,
      shownAt_here, shownAt_here] at this
    exact slist rfl this
  | _ :: _, [], [], _, _, _, _, _ => rfl
  | n :: ns, [], b :: bs, _, hh, _, hb, h => by
    obtain ⟨⟨c, as, rfl⟩, _⟩ := hb
    have := h n (List.mem_cons_of_mem _ List.mem_cons_self)
    rw [argAttrs, argAttrs, shownAt_here, shownAt_here, shown_none, shown_inst (hh n List.mem_cons_self)] at this
    exact nomatch this
  | n :: ns, a :: as, [], _, hh, ha, _, h => by
    obtain ⟨⟨c, as', rfl⟩, _⟩ := ha
    have := h n (List.mem_cons_of_mem _ List.mem_cons_self)
    rw [argAttrs, argAttrs, shownAt_here, shownAt_here, shown_none, shown_inst (hh n List.mem_cons_self)] at this
    exact nomatch this
  | n :: ns, a :: as, b :: bs, hn, hh, ha, hb, h => by
    have h0 : a.tree = b.tree := by
      have := h n (List.mem_cons_of_mem _ List.mem_cons_self)
      obtain ⟨⟨c, as', rfl⟩, _⟩ := ha
      obtain ⟨⟨c', bs', rfl⟩, _⟩ := hb
      rw [argAttrs, argAttrs, shownAt_here, shownAt_here, shown_inst (hh n List.mem_cons_self), shown_inst (hh n List.mem_cons_self)] at this
      exact Option.some.inj this
    have hne := List.nodup_cons.mp hn
    have hns := List.nodup_cons.mp hne.2
    have ht := argTrees ns as bs (List.nodup_cons.mpr ⟨fun k => hne.1 (List.mem_cons_of_mem _ k), hns.2⟩)
      (fun k hk => hh k (List.mem_cons_of_mem _ hk)) ha.2 hb.2 (fun k hk => by
        have hk' : k ∈ [] :: n :: ns := by
          rcases List.mem_cons.mp hk with rfl | hk
          · exact List.mem_cons_self
          · exact List.mem_cons_of_mem _ (List.mem_cons_of_mem _ hk)
        have hne' : n ≠ k := by
          rcases List.mem_cons.mp hk with rfl | hk
          · exact fun e => hne.1 (e ▸ List.mem_cons_self)
          · exact fun e => hns.1 (e ▸ hk)
        have := h k hk'
        rw [argAttrs, argAttrs, shownAt_skip hne', shownAt_skip hne'] at this
        exact this)
    show a.tree :: _ = b.tree :: _
    rw [h0, ht]

theorem unixTrees {as bs : List Obj} (ha : AllInst as) (hb : AllInst bs)
    (h : ∀ k, k ≠ c% "data_type" → shownAt k (fnAttrs .fromUnixtime as) = shownAt k (fnAttrs .fromUnixtime bs)) : Obj.trees as = Obj.trees bs := by
  have hl : ∀ {l : List (Str × Obj)} {k : Str}, k ≠ c% "hours" → k ≠ c% "minutes" →
      shownAt k (l ++ [(c% "hours", Obj.none), (c% "minutes", Obj.none)]) = shownAt k l := fun {l k} h1 h2 => by
    induction l with
    | nil =>
      rw [List.nil_append, shownAt_skip (Ne.symm h1), shownAt_skip (Ne.symm h2)]
    | cons x r ih =>
      obtain ⟨k', v⟩ := x
      by_cases e : k' = k
      · subst e; rw [List.cons_append, shownAt_here, shownAt_here]
      · rw [List.cons_append, shownAt_skip e, shownAt_skip e, ih]
  have hm : ∀ {l : List Obj}, shownAt (c% "hours") (argAttrs [c% "value", c% "zone"] l ++ [(c% "hours", Obj.none), (c% "minutes", Obj.none)]) = none := fun {l} => by
    match l with
    | [] | [_] | [_, _] | _ :: _ :: _ :: _ =>
      simp only [argAttrs, List.cons_append, List.nil_append]
      repeat rw [shownAt_skip (by decide)]
      rw [shownAt_here, shown_none]
  have h3 : ∀ {v x m : Obj}, AllInst [v, x, m] → shownAt (c% "hours") (fnAttrs .fromUnixtime [v, x, m]) = some x.tree := fun {v x m} hi => by
    obtain ⟨_, ⟨c, l, rfl⟩, _⟩ := hi
    show shown (c% "hours") (.inst c l) = _
    exact shown_inst rfl _ _
  rcases fnAttrs_unix as with ⟨v, x, m, rfl⟩ | ea <;> rcases fnAttrs_unix bs with ⟨v', x', m', rfl⟩ | eb
  · obtain ⟨⟨c1, l1, rfl⟩, ⟨c2, l2, rfl⟩, ⟨c3, l3, rfl⟩, _⟩ := ha
    obtain ⟨⟨d1, k1, rfl⟩, ⟨d2, k2, rfl⟩, ⟨d3, k3, rfl⟩, _⟩ := hb
    have e1 : shown (c% "value") (.inst c1 l1) = shown (c% "value") (.inst d1 k1) := h (c% "value") (by decide)
    have e2 : shown (c% "hours") (.inst c2 l2) = shown (c% "hours") (.inst d2 k2) := h (c% "hours") (by decide)
    have e3 : shown (c% "minutes") (.inst c3 l3) = shown (c% "minutes") (.inst d3 k3) := h (c% "minutes") (by decide)
    rw [shown_inst rfl, shown_inst rfl] at e1 e2 e3
    show [_, _, _] = [_, _, _]
    rw [Option.some.inj e1, Option.some.inj e2, Option.some.inj e3]
  · have := h (c% "hours") (by decide)
    rw [h3 ha, eb, hm] at this
    exact nomatch this
  · have := h (c% "hours") (by decide)
    rw [h3 hb, ea, hm] at this
    exact nomatch this
  · refine argTrees [c% "value", c% "zone"] as bs (by decide) (by decide) ha hb (fun k hk => ?_)
    have hk' : k ≠ c% "data_type" ∧ k ≠ c% "hours" ∧ k ≠ c% "minutes" := by
      revert k; decide
    have := h k hk'.1
    rw [ea, eb, hl hk'.2.1 hk'.2.2, hl hk'.2.1 hk'.2.2] at this
    exact this

theorem fnTrees {f : Fn} {as bs : List Obj} (ha : AllInst as) (hb : AllInst bs)
    (h : ∀ k, k ≠ c% "data_type" → shownAt k (fnAttrs f as) = shownAt k (fnAttrs f bs)) : Obj.trees as = Obj.trees bs := by
  cases f
  case concat => exact slist (k := c% "values") rfl (h (c% "values") (by decide))
  case coalesce => exact slist (k := c% "values") rfl (h (c% "values") (by decide))
  case fromUnixtime => exact unixTrees ha hb h
  all_goals exact argTrees _ as bs (by decide) (by decide) ha hb (fun k hk => h k (by revert k; decide))

theorem aggTrees {f : Agg} {as bs : List Obj} (ha : AllInst as) (hb : AllInst bs)
    (h : ∀ k, k ∉ [c% "data_type", c% "orderby", c% "filter_", c% "window", c% "null_treatment"] →
      shownAt k (argAttrs f.attrNames as) = shownAt k (argAttrs f.attrNames bs)) : Obj.trees as = Obj.trees bs := by
  cases f
  all_goals exact argTrees _ as bs (by decide) (by decide) ha hb (fun k hk => h k (by revert k; decide))

/-! ## Nodes -/

theorem objs_inst : ∀ l : List Expr, AllInst (Expr.objs l)
  | [] => trivial
  | e :: r => ⟨Expr_inst e, objs_inst r⟩
theorem sinst {k : Str} (hk : hiddenKey k = false) {v w : Obj} (hv : ∃ c as, v = .inst c as) (hw : ∃ c as, w = .inst c as)
    (h : shown k v = shown k w) : v.tree = w.tree := by
  obtain ⟨c, as, rfl⟩ := hv
  obtain ⟨c', as', rfl⟩ := hw
  rw [shown_inst hk, shown_inst hk] at h
  exact Option.some.inj h
theorem Ord_inst (x : Ord) : ∃ c as, x.obj = .inst c as := by cases x; exact ⟨_, _, rfl⟩
theorem Bound_inst (x : Bound) : ∃ c as, x.obj = .inst c as := by cases x <;> exact ⟨_, _, rfl⟩
theorem Win_inst (x : Win) : ∃ c as, x.obj = .inst c as := by cases x; exact ⟨_, _, rfl⟩
theorem GroupBy_inst (x : GroupBy) : ∃ c as, x.obj = .inst c as := by cases x; exact ⟨_, _, rfl⟩
theorem Crit_inst (x : Crit) : ∃ c as, x.obj = .inst c as := by cases x <;> exact ⟨_, _, rfl⟩
theorem Query_inst' (x : Query) : ∃ c as, x.obj = .inst c as := by
  obtain ⟨as, h⟩ := Query_inst x; exact ⟨_, as, h⟩
theorem Rel_inst (x : Rel) : ∃ c as, x.obj = .inst c as := by
  cases x
  case query q => exact Query_inst' q
  case aliased n => cases n; exact ⟨_, _, rfl⟩
  all_goals exact ⟨_, _, rfl⟩
theorem sOpt {k : Str} (hk : hiddenKey k = false) {v : Obj} (hv : ∃ c as, v = .inst c as) : shown k .none ≠ shown k v := by
  obtain ⟨c, as, rfl⟩ := hv
  rw [shown_none, shown_inst hk]; exact nofun

theorem tableTree {a b : TableRef} (h : a.obj.tree = b.obj.tree) : a.name = b.name ∧ a.schema = b.schema ∧ a.catalog = b.catalog := by
  have K := shownAt_of h (by decide) (by decide) (by dsimp only [List.map]; decide) (by dsimp only [List.map]; decide)
  exact ⟨sstr (k := c% "name") rfl (K (c% "name")), soptStr (k := c% "schema") rfl (K (c% "schema")),
    soptStr (k := c% "catalog") rfl (K (c% "catalog"))⟩

/-! ## Which constructor a displayed tree comes from -/

theorem QBody_data (b : QBody) : b.cls ≠ .dataType := by cases b <;> exact nofun
theorem clsNamed_tree {c : Cls} {as : List (Str × Obj)} (hc : c ≠ .dataType) : clsNamed (Obj.inst c as).tree.label = some c := by
  rw [tree_inst hc]; exact clsNamed_name c

def kindC (c : Cls) (n : Bool) : Nat := match c with
  | .literal => 0
  | .field => if n then 2 else 1
  | .aliasedValue => 3
  | .star => if n then 5 else 4
  | .aliasedStar => 6 | .variable => 7 | .lambda => 8 | .un _ => 9 | .bin _ => 10 | .not => 11 | .isNull => 12
  | .between => 13 | .array => 14 | .inQuery => 15 | .inList => 16 | .like => 17 | .typeConstructor => 18
  | .rowConstructor => 19 | .interval => 20 | .cast _ => 21 | .subscript => 22 | .case => 23 | .fn _ => 24 | .agg _ => 25
  | .listAgg => 26 | .curTime _ => 27 | .session _ => 28 | .normalize => 29
  | _ => 30
def nodeO : Option PTree → Bool
  | some (.node _ _) => true
  | _ => false
def tabNode (t : PTree) : Bool := nodeO (kidAt (c% "table") t.kids)
def kindT (t : PTree) : Nat := match clsNamed t.label with
  | some c => kindC c (tabNode t)
  | none => 31
theorem kindT_inst {c : Cls} {as : List (Str × Obj)} (hc : c ≠ .dataType) : kindT (Obj.inst c as).tree = kindC c (tabNode (Obj.inst c as).tree) := by
  unfold kindT; rw [clsNamed_tree hc]
theorem tabNode_inst {c : Cls} {as : List (Str × Obj)} (hc : c ≠ .dataType) (hn : (as.map Prod.fst).Nodup) {o : Option PTree}
    (h : shownAt (c% "table") as = o) : tabNode (Obj.inst c as).tree = nodeO o := by
  unfold tabNode
  rw [tree_inst hc, PTree.kids, kidAt_attrs _ _ hn, h]
theorem tabNode_str {o : Option Str} : nodeO (shown (c% "table") (.optStr o)) = false := by
  cases o <;> rfl
theorem tree_node {c : Cls} {as : List (Str × Obj)} (hc : c ≠ .dataType) : ∃ l ks, (Obj.inst c as).tree = .node l ks := ⟨_, _, tree_inst hc⟩
theorem Expr_data (e : Expr) : ∃ c as, e.obj = .inst c as ∧ c ≠ .dataType := by
  cases e
  case query q => obtain ⟨as, h⟩ := Query_inst q; exact ⟨_, as, h, QBody_data _⟩
  all_goals exact ⟨_, _, rfl, nofun⟩
theorem tabNode_expr {e : Expr} : nodeO (shown (c% "table") e.obj) = true := by
  obtain ⟨c, as, h, hc⟩ := Expr_data e
  rw [h, shown_inst rfl, tree_inst hc]; rfl
theorem kindT_eq (e : Expr) : kindT e.obj.tree = idxE e := by
  cases e
  case field n tn t =>
    rw [Expr_obj_field, kindT_inst (by exact nofun), tabNode_inst (by exact nofun) (by dsimp only [List.map]; decide) rfl]
    show (if nodeO (shown (c% "table") (.optStr tn)) = true then 2 else 1) = 1
    rw [tabNode_str]; rfl
  case star tn t =>
    rw [Expr_obj_star, kindT_inst (by exact nofun), tabNode_inst (by exact nofun) (by dsimp only [List.map]; decide) rfl]
    show (if nodeO (shown (c% "table") (.optStr tn)) = true then 5 else 4) = 4
    rw [tabNode_str]; rfl
  case fieldOf n b t =>
    rw [Expr_obj_fieldOf, kindT_inst (by exact nofun), tabNode_inst (by exact nofun) (by dsimp only [List.map]; decide) rfl]
    show (if nodeO (shown (c% "table") b.obj) = true then 2 else 1) = 2
    rw [tabNode_expr]; rfl
  case starOf b t =>
    rw [Expr_obj_starOf, kindT_inst (by exact nofun), tabNode_inst (by exact nofun) (by dsimp only [List.map]; decide) rfl]
    show (if nodeO (shown (c% "table") b.obj) = true then 5 else 4) = 5
    rw [tabNode_expr]; rfl
  case query q =>
    obtain ⟨as, h⟩ := Query_inst q
    rw [Expr_obj_query, h, kindT_inst (QBody_data _)]
    obtain ⟨b, _, _, _, _⟩ := q
    cases b <;> rfl
  all_goals exact kindT_inst (by exact nofun)
theorem tidx_Expr {a b : Expr} (h : a.obj.tree = b.obj.tree) : idxE a = idxE b := by
  rw [← kindT_eq, ← kindT_eq, h]
def clsT (t : PTree) : Cls := (clsNamed t.label).getD .literal
theorem clsT_inst {c : Cls} {as : List (Str × Obj)} (hc : c ≠ .dataType) : clsT (Obj.inst c as).tree = c := by
  unfold clsT; rw [clsNamed_tree hc]; rfl
def kindRC (c : Cls) : Nat := match c with
  | .table => 0 | .aliasedRelation => 2 | .join => 3 | .unnest => 4 | .lateral => 5 | .tableSample => 6
  | _ => 1
theorem kindRT_eq (e : Rel) : kindRC (clsT e.obj.tree) = idxR e := by
  cases e
  case query q =>
    obtain ⟨as, h⟩ := Query_inst q
    rw [Rel_obj_query, h, clsT_inst (QBody_data _)]
    obtain ⟨b, _, _, _, _⟩ := q
    cases b <;> rfl
  case aliased n => cases n; exact congrArg kindRC (clsT_inst (by exact nofun))
  all_goals exact congrArg kindRC (clsT_inst (by exact nofun))
theorem tidx_Rel {a b : Rel} (h : a.obj.tree = b.obj.tree) : idxR a = idxR b := by
  rw [← kindRT_eq, ← kindRT_eq, h]
def kindSC (c : Cls) : Nat := match c with
  | .boundedFrameBound | .groupingSet | .joinUsingCriteria => 0
  | .unboundedFrameBound | .groupingSetList | .joinOnCriteria => 1
  | .currentFrameBound | .cube => 2
  | _ => 3
theorem tidx_Bound {a b : Bound} (h : a.obj.tree = b.obj.tree) : idxB a = idxB b := by
  have e : ∀ x : Bound, kindSC (clsT x.obj.tree) = idxB x := fun x => by cases x <;> exact congrArg kindSC (clsT_inst (by exact nofun))
  rw [← e, ← e, h]
theorem tidx_Grp {a b : Grp} (h : a.obj.tree = b.obj.tree) : idxG a = idxG b := by
  have e : ∀ x : Grp, kindSC (clsT x.obj.tree) = idxG x := fun x => by cases x <;> exact congrArg kindSC (clsT_inst (by exact nofun))
  rw [← e, ← e, h]
theorem tidx_Crit {a b : Crit} (h : a.obj.tree = b.obj.tree) : idxC a = idxC b := by
  have e : ∀ x : Crit, kindSC (clsT x.obj.tree) = idxC x := fun x => by cases x <;> exact congrArg kindSC (clsT_inst (by exact nofun))
  rw [← e, ← e, h]
theorem query_nodup (b : QBody) {o1 o2 o3 o4 : Obj} {r : Except Err Ty} : ((typeAttr r :: (c% "offset", o1) :: (c% "limit", o2) :: (c% "orderby", o3) :: (c% "with_", o4) :: b.attrs).map Prod.fst).Nodup := by
  cases b <;> (dsimp only [QBody.attrs, List.map, typeAttr]; decide)
theorem winTree {a b : Win} (h : a.obj.tree.kids = b.obj.tree.kids) : a.obj.tree = b.obj.tree := by
  cases a; cases b
  rw [Win_obj_mk, Win_obj_mk] at h ⊢
  rw [tree_inst (by exact nofun), tree_inst (by exact nofun)] at h ⊢
  exact congrArg _ h

set_option maxHeartbeats 1600000 in
mutual
theorem tinj_Expr (g : Expr → Expr) (tg : TableRef → TableRef) (htg : ∀ a b : TableRef, a.name = b.name → a.schema = b.schema → a.catalog = b.catalog → tg a = tg b) : ∀ x y : Expr, Typed (litsExpr x) → Typed (litsExpr y) → x.obj.tree = y.obj.tree → mapExpr g tg x = mapExpr g tg y
  | .lit v t, y, hx, hy, h => by
    have hk := tidx_Expr h
    cases y with
    | lit v' t' =>
      rw [Expr_obj_lit, Expr_obj_lit] at h
      have K := shownAt_of h (by exact nofun) (by exact nofun) (by dsimp only [List.map, typeAttr]; decide) (by dsimp only [List.map, typeAttr]; decide)
      have h_t : t = t' := sTy (k := c% "data_type") rfl (K (c% "data_type"))
      subst h_t
      have h_v : v = v' := slit (k := c% "value") rfl hx hy (K (c% "value"))
      subst h_v
      rfl
    | _ => exact absurd hk (Nat.ne_of_beq_eq_false rfl)
  | .field n tn t, y, hx, hy, h => by
    have hk := tidx_Expr h
    cases y with
    | field n' tn' t' =>
      rw [Expr_obj_field, Expr_obj_field] at h
      have K := shownAt_of h (by exact nofun) (by exact nofun) (by dsimp only [List.map, typeAttr]; decide) (by dsimp only [List.map, typeAttr]; decide)
      have h_n : n = n' := sstr (k := c% "name") rfl (K (c% "name"))
      subst h_n
      have h_tn : tn = tn' := soptStr (k := c% "table") rfl (K (c% "table"))
      subst h_tn
      have h_t : t = t' := sTy (k := c% "data_type") rfl (K (c% "data_type"))
      subst h_t
      rfl
    | _ => exact absurd hk (Nat.ne_of_beq_eq_false rfl)
  | .fieldOf n b t, y, hx, hy, h => by
    have hk := tidx_Expr h
    cases y with
    | fieldOf n' b' t' =>
      rw [Expr_obj_fieldOf, Expr_obj_fieldOf] at h
      have K := shownAt_of h (by exact nofun) (by exact nofun) (by dsimp only [List.map, typeAttr]; decide) (by dsimp only [List.map, typeAttr]; decide)
      have h_n : n = n' := sstr (k := c% "name") rfl (K (c% "name"))
      subst h_n
      have h_b := tinj_Expr g tg htg b b' hx hy (sinst (k := c% "table") rfl (Expr_inst _) (Expr_inst _) (K (c% "table")))
      have h_t : t = t' := sTy (k := c% "data_type") rfl (K (c% "data_type"))
      subst h_t
      rw [mapExpr, mapExpr, h_b]
    | _ => exact absurd hk (Nat.ne_of_beq_eq_false rfl)
  | .alias v n, y, hx, hy, h => by
    have hk := tidx_Expr h
    cases y with
    | «alias» v' n' =>
      rw [Expr_obj_alias, Expr_obj_alias] at h
      have K := shownAt_of h (by exact nofun) (by exact nofun) (by dsimp only [List.map, typeAttr]; decide) (by dsimp only [List.map, typeAttr]; decide)
      have h_v := tinj_Expr g tg htg v v' hx hy (sinst (k := c% "value") rfl (Expr_inst _) (Expr_inst _) (K (c% "value")))
      have h_n : n = n' := sstr (k := c% "alias") rfl (K (c% "alias"))
      subst h_n
      rw [mapExpr, mapExpr, h_v]
    | _ => exact absurd hk (Nat.ne_of_beq_eq_false rfl)
  | .star tn t, y, hx, hy, h => by
    have hk := tidx_Expr h
    cases y with
    | star tn' t' =>
      rw [Expr_obj_star, Expr_obj_star] at h
      have K := shownAt_of h (by exact nofun) (by exact nofun) (by dsimp only [List.map, typeAttr]; decide) (by dsimp only [List.map, typeAttr]; decide)
      have h_tn : tn = tn' := soptStr (k := c% "table") rfl (K (c% "table"))
      subst h_tn
      have h_t : t = t' := sTy (k := c% "data_type") rfl (K (c% "data_type"))
      subst h_t
      rfl
    | _ => exact absurd hk (Nat.ne_of_beq_eq_false rfl)
  | .starOf b t, y, hx, hy, h => by
    have hk := tidx_Expr h
    cases y with
    | starOf b' t' =>
      rw [Expr_obj_starOf, Expr_obj_starOf] at h
      have K := shownAt_of h (by exact nofun) (by exact nofun) (by dsimp only [List.map, typeAttr]; decide) (by dsimp only [List.map, typeAttr]; decide)
      have h_b := tinj_Expr g tg htg b b' hx hy (sinst (k := c% "table") rfl (Expr_inst _) (Expr_inst _) (K (c% "table")))
      have h_t : t = t' := sTy (k := c% "data_type") rfl (K (c% "data_type"))
      subst h_t
      rw [mapExpr, mapExpr, h_b]
    | _ => exact absurd hk (Nat.ne_of_beq_eq_false rfl)
  | .aliasedStar s as, y, hx, hy, h => by
    have hk := tidx_Expr h
    cases y with
    | aliasedStar s' as' =>
      rw [Expr_obj_aliasedStar, Expr_obj_aliasedStar] at h
      have K := shownAt_of h (by exact nofun) (by exact nofun) (by dsimp only [List.map, typeAttr]; decide) (by dsimp only [List.map, typeAttr]; decide)
      have h_s := tinj_Expr g tg htg s s' hx hy (sinst (k := c% "star") rfl (Expr_inst _) (Expr_inst _) (K (c% "star")))
      have h_as : as = as' := sstrs (k := c% "aliases") rfl (K (c% "aliases"))
      subst h_as
      rw [mapExpr, mapExpr, h_s]
    | _ => exact absurd hk (Nat.ne_of_beq_eq_false rfl)
  | .var n, y, hx, hy, h => by
    have hk := tidx_Expr h
    cases y with
    | var n' =>
      rw [Expr_obj_var, Expr_obj_var] at h
      have K := shownAt_of h (by exact nofun) (by exact nofun) (by dsimp only [List.map, typeAttr]; decide) (by dsimp only [List.map, typeAttr]; decide)
      have h_n : n = n' := sstr (k := c% "name") rfl (K (c% "name"))
      subst h_n
      rfl
    | _ => exact absurd hk (Nat.ne_of_beq_eq_false rfl)
  | .lam ins b, y, hx, hy, h => by
    have hk := tidx_Expr h
    cases y with
    | lam ins' b' =>
      rw [Expr_obj_lam, Expr_obj_lam] at h
      have K := shownAt_of h (by exact nofun) (by exact nofun) (by dsimp only [List.map, typeAttr]; decide) (by dsimp only [List.map, typeAttr]; decide)
      have h_ins : ins = ins' := svars (k := c% "inputs") rfl (K (c% "inputs"))
      subst h_ins
      have h_b := tinj_Expr g tg htg b b' hx hy (sinst (k := c% "expr") rfl (Expr_inst _) (Expr_inst _) (K (c% "expr")))
      rw [mapExpr, mapExpr, h_b]
    | _ => exact absurd hk (Nat.ne_of_beq_eq_false rfl)
  | .un op v, y, hx, hy, h => by
    have hk := tidx_Expr h
    cases y with
    | un op' v' =>
      rw [Expr_obj_un, Expr_obj_un] at h
      have h_op : op = op' := Cls.un.inj (Cls_name_inj (name_of h (by exact nofun) (by exact nofun)))
      subst h_op
      have K := shownAt_of h (by exact nofun) (by exact nofun) (by dsimp only [List.map, typeAttr]; decide) (by dsimp only [List.map, typeAttr]; decide)
      have h_v := tinj_Expr g tg htg v v' hx hy (sinst (k := c% "value") rfl (Expr_inst _) (Expr_inst _) (K (c% "value")))
      rw [mapExpr, mapExpr, h_v]
    | _ => exact absurd hk (Nat.ne_of_beq_eq_false rfl)
  | .bin op l r, y, hx, hy, h => by
    have hk := tidx_Expr h
    cases y with
    | bin op' l' r' =>
      rw [Expr_obj_bin, Expr_obj_bin] at h
      have h_op : op = op' := Cls.bin.inj (Cls_name_inj (name_of h (by exact nofun) (by exact nofun)))
      subst h_op
      have K := shownAt_of h (by exact nofun) (by exact nofun) (by dsimp only [List.map, typeAttr]; decide) (by dsimp only [List.map, typeAttr]; decide)
      have h_l := tinj_Expr g tg htg l l' hx.l hy.l (sinst (k := c% "left") rfl (Expr_inst _) (Expr_inst _) (K (c% "left")))
      have h_r := tinj_Expr g tg htg r r' hx.r hy.r (sinst (k := c% "right") rfl (Expr_inst _) (Expr_inst _) (K (c% "right")))
      rw [mapExpr, mapExpr, h_l, h_r]
    | _ => exact absurd hk (Nat.ne_of_beq_eq_false rfl)
  | .not v, y, hx, hy, h => by
    have hk := tidx_Expr h
    cases y with
    | not v' =>
      rw [Expr_obj_not, Expr_obj_not] at h
      have K := shownAt_of h (by exact nofun) (by exact nofun) (by dsimp only [List.map, typeAttr]; decide) (by dsimp only [List.map, typeAttr]; decide)
      have h_v := tinj_Expr g tg htg v v' hx hy (sinst (k := c% "value") rfl (Expr_inst _) (Expr_inst _) (K (c% "value")))
      rw [mapExpr, mapExpr, h_v]
    | _ => exact absurd hk (Nat.ne_of_beq_eq_false rfl)
  | .isNull v, y, hx, hy, h => by
    have hk := tidx_Expr h
    cases y with
    | isNull v' =>
      rw [Expr_obj_isNull, Expr_obj_isNull] at h
      have K := shownAt_of h (by exact nofun) (by exact nofun) (by dsimp only [List.map, typeAttr]; decide) (by dsimp only [List.map, typeAttr]; decide)
      have h_v := tinj_Expr g tg htg v v' hx hy (sinst (k := c% "value") rfl (Expr_inst _) (Expr_inst _) (K (c% "value")))
      rw [mapExpr, mapExpr, h_v]
    | _ => exact absurd hk (Nat.ne_of_beq_eq_false rfl)
  | .between v l u, y, hx, hy, h => by
    have hk := tidx_Expr h
    cases y with
    | between v' l' u' =>
      rw [Expr_obj_between, Expr_obj_between] at h
      have K := shownAt_of h (by exact nofun) (by exact nofun) (by dsimp only [List.map, typeAttr]; decide) (by dsimp only [List.map, typeAttr]; decide)
      have h_v := tinj_Expr g tg htg v v' hx.l hy.l (sinst (k := c% "value") rfl (Expr_inst _) (Expr_inst _) (K (c% "value")))
      have h_l := tinj_Expr g tg htg l l' hx.r.l hy.r.l (sinst (k := c% "lower") rfl (Expr_inst _) (Expr_inst _) (K (c% "lower")))
      have h_u := tinj_Expr g tg htg u u' hx.r.r hy.r.r (sinst (k := c% "upper") rfl (Expr_inst _) (Expr_inst _) (K (c% "upper")))
      rw [mapExpr, mapExpr, h_v, h_l, h_u]
    | _ => exact absurd hk (Nat.ne_of_beq_eq_false rfl)
  | .array vs, y, hx, hy, h => by
    have hk := tidx_Expr h
    cases y with
    | array vs' =>
      rw [Expr_obj_array, Expr_obj_array] at h
      have K := shownAt_of h (by exact nofun) (by exact nofun) (by dsimp only [List.map, typeAttr]; decide) (by dsimp only [List.map, typeAttr]; decide)
      have h_vs := tinj_Exprs g tg htg vs vs' hx hy (slist (k := c% "values") rfl (K (c% "values")))
      rw [mapExpr, mapExpr, h_vs]
    | _ => exact absurd hk (Nat.ne_of_beq_eq_false rfl)
  | .inQuery v q, y, hx, hy, h => by
    have hk := tidx_Expr h
    cases y with
    | inQuery v' q' =>
      rw [Expr_obj_inQuery, Expr_obj_inQuery] at h
      have K := shownAt_of h (by exact nofun) (by exact nofun) (by dsimp only [List.map, typeAttr]; decide) (by dsimp only [List.map, typeAttr]; decide)
      have h_v := tinj_Expr g tg htg v v' hx.l hy.l (sinst (k := c% "value") rfl (Expr_inst _) (Expr_inst _) (K (c% "value")))
      have h_q := tinj_Query g tg htg q q' hx.r hy.r (sinst (k := c% "query") rfl (Query_inst' _) (Query_inst' _) (K (c% "query")))
      rw [mapExpr, mapExpr, h_v, h_q]
    | _ => exact absurd hk (Nat.ne_of_beq_eq_false rfl)
  | .inList v es, y, hx, hy, h => by
    have hk := tidx_Expr h
    cases y with
    | inList v' es' =>
      rw [Expr_obj_inList, Expr_obj_inList] at h
      have K := shownAt_of h (by exact nofun) (by exact nofun) (by dsimp only [List.map, typeAttr]; decide) (by dsimp only [List.map, typeAttr]; decide)
      have h_v := tinj_Expr g tg htg v v' hx.l hy.l (sinst (k := c% "value") rfl (Expr_inst _) (Expr_inst _) (K (c% "value")))
      have h_es := tinj_Exprs g tg htg es es' hx.r hy.r (slist (k := c% "exprs") rfl (K (c% "exprs")))
      rw [mapExpr, mapExpr, h_v, h_es]
    | _ => exact absurd hk (Nat.ne_of_beq_eq_false rfl)
  | .like v p e, y, hx, hy, h => by
    have hk := tidx_Expr h
    cases y with
    | like v' p' e' =>
      rw [Expr_obj_like, Expr_obj_like] at h
      have K := shownAt_of h (by exact nofun) (by exact nofun) (by dsimp only [List.map, typeAttr]; decide) (by dsimp only [List.map, typeAttr]; decide)
      have h_v := tinj_Expr g tg htg v v' hx.l hy.l (sinst (k := c% "value") rfl (Expr_inst _) (Expr_inst _) (K (c% "value")))
      have h_p := tinj_Expr g tg htg p p' hx.r.l hy.r.l (sinst (k := c% "pattern") rfl (Expr_inst _) (Expr_inst _) (K (c% "pattern")))
      have h_e := tinj_ExprOpt g tg htg e e' (c% "escape") rfl hx.r.r hy.r.r (K (c% "escape"))
      rw [mapExpr, mapExpr, h_v, h_p, h_e]
    | _ => exact absurd hk (Nat.ne_of_beq_eq_false rfl)
  | .typeCtor v t, y, hx, hy, h => by
    have hk := tidx_Expr h
    cases y with
    | typeCtor v' t' =>
      rw [Expr_obj_typeCtor, Expr_obj_typeCtor] at h
      have K := shownAt_of h (by exact nofun) (by exact nofun) (by dsimp only [List.map, typeAttr]; decide) (by dsimp only [List.map, typeAttr]; decide)
      have h_v : v = v' := sstr (k := c% "value") rfl (K (c% "value"))
      subst h_v
      have h_t : t = t' := sstr (k := c% "type_name") rfl (K (c% "type_name"))
      subst h_t
      rfl
    | _ => exact absurd hk (Nat.ne_of_beq_eq_false rfl)
  | .row vs, y, hx, hy, h => by
    have hk := tidx_Expr h
    cases y with
    | row vs' =>
      rw [Expr_obj_row, Expr_obj_row] at h
      have K := shownAt_of h (by exact nofun) (by exact nofun) (by dsimp only [List.map, typeAttr]; decide) (by dsimp only [List.map, typeAttr]; decide)
      have h_vs := tinj_Exprs g tg htg vs vs' hx hy (slist (k := c% "values") rfl (K (c% "values")))
      rw [mapExpr, mapExpr, h_vs]
    | _ => exact absurd hk (Nat.ne_of_beq_eq_false rfl)
  | .interval v f t, y, hx, hy, h => by
    have hk := tidx_Expr h
    cases y with
    | interval v' f' t' =>
      rw [Expr_obj_interval, Expr_obj_interval] at h
      have K := shownAt_of h (by exact nofun) (by exact nofun) (by dsimp only [List.map, typeAttr]; decide) (by dsimp only [List.map, typeAttr]; decide)
      have h_v : v = v' := sstr (k := c% "value") rfl (K (c% "value"))
      subst h_v
      have h_f : f = f' := sstr (k := c% "from_interval") rfl (K (c% "from_interval"))
      subst h_f
      have h_t : t = t' := soptStr (k := c% "to_interval") rfl (K (c% "to_interval"))
      subst h_t
      rfl
    | _ => exact absurd hk (Nat.ne_of_beq_eq_false rfl)
  | .cast tr e t, y, hx, hy, h => by
    have hk := tidx_Expr h
    cases y with
    | cast tr' e' t' =>
      rw [Expr_obj_cast, Expr_obj_cast] at h
      have h_tr : tr = tr' := Cls.cast.inj (Cls_name_inj (name_of h (by exact nofun) (by exact nofun)))
      subst h_tr
      have K := shownAt_of h (by exact nofun) (by exact nofun) (by dsimp only [List.map, typeAttr]; decide) (by dsimp only [List.map, typeAttr]; decide)
      have h_e := tinj_Expr g tg htg e e' hx hy (sinst (k := c% "expr") rfl (Expr_inst _) (Expr_inst _) (K (c% "expr")))
      have h_t : t = t' := sTy (k := c% "data_type") rfl (K (c% "data_type"))
      subst h_t
      rw [mapExpr, mapExpr, h_e]
    | _ => exact absurd hk (Nat.ne_of_beq_eq_false rfl)
  | .subscript v i, y, hx, hy, h => by
    have hk := tidx_Expr h
    cases y with
    | subscript v' i' =>
      rw [Expr_obj_subscript, Expr_obj_subscript] at h
      have K := shownAt_of h (by exact nofun) (by exact nofun) (by dsimp only [List.map, typeAttr]; decide) (by dsimp only [List.map, typeAttr]; decide)
      have h_v := tinj_Expr g tg htg v v' hx.l hy.l (sinst (k := c% "value") rfl (Expr_inst _) (Expr_inst _) (K (c% "value")))
      have h_i := tinj_Expr g tg htg i i' hx.r hy.r (sinst (k := c% "index") rfl (Expr_inst _) (Expr_inst _) (K (c% "index")))
      rw [mapExpr, mapExpr, h_v, h_i]
    | _ => exact absurd hk (Nat.ne_of_beq_eq_false rfl)
  | .case v bs e, y, hx, hy, h => by
    have hk := tidx_Expr h
    cases y with
    | case v' bs' e' =>
      rw [Expr_obj_case, Expr_obj_case] at h
      have K := shownAt_of h (by exact nofun) (by exact nofun) (by dsimp only [List.map, typeAttr]; decide) (by dsimp only [List.map, typeAttr]; decide)
      have h_v := tinj_ExprOpt g tg htg v v' (c% "value") rfl hx.l hy.l (K (c% "value"))
      have h_bs := tinj_Whens g tg htg bs bs' hx.r.l hy.r.l (slist (k := c% "branches") rfl (K (c% "branches")))
      have h_e := tinj_Else g tg htg e e' hx.r.r hy.r.r (K (c% "else_"))
      rw [mapExpr, mapExpr, h_v, h_bs, h_e]
    | _ => exact absurd hk (Nat.ne_of_beq_eq_false rfl)
  | .func f as, y, hx, hy, h => by
    have hk := tidx_Expr h
    cases y with
    | func f' as' =>
      rw [Expr_obj_func, Expr_obj_func] at h
      have h_f : f = f' := Cls.fn.inj (Cls_name_inj (name_of h (by exact nofun) (by exact nofun)))
      subst h_f
      have K := shownAt_of h (by exact nofun) (by exact nofun) (fnAttrs_nodup _ _) (fnAttrs_nodup _ _)
      have h_as := tinj_Exprs g tg htg as as' hx hy (fnTrees (objs_inst _) (objs_inst _) (fun k hk => by have := K k; rwa [shownAt_type (Ne.symm hk), shownAt_type (Ne.symm hk)] at this))
      rw [mapExpr, mapExpr, h_as]
    | _ => exact absurd hk (Nat.ne_of_beq_eq_false rfl)
  | .agg f as ob fl w ign, y, hx, hy, h => by
    have hk := tidx_Expr h
    cases y with
    | agg f' as' ob' fl' w' ign' =>
      rw [Expr_obj_agg, Expr_obj_agg] at h
      have h_f : f = f' := Cls.agg.inj (Cls_name_inj (name_of h (by exact nofun) (by exact nofun)))
      subst h_f
      have K := shownAt_of h (by exact nofun) (by exact nofun) (aggAttrs_nodup _ _) (aggAttrs_nodup _ _)
      have h_as := tinj_Exprs g tg htg as as' hx.l hy.l (aggTrees (f := f) (objs_inst _) (objs_inst _) (fun k hk => by have := K k; rwa [shownAt_type (by rintro rfl; exact hk (by simp)), shownAt_type (by rintro rfl; exact hk (by simp)), shownAt_skip (by rintro rfl; exact hk (by simp)), shownAt_skip (by rintro rfl; exact hk (by simp)), shownAt_skip (by rintro rfl; exact hk (by simp)), shownAt_skip (by rintro rfl; exact hk (by simp)), shownAt_skip (by rintro rfl; exact hk (by simp)), shownAt_skip (by rintro rfl; exact hk (by simp)), shownAt_skip (by rintro rfl; exact hk (by simp)), shownAt_skip (by rintro rfl; exact hk (by simp))] at this))
      have h_ob := tinj_Ords g tg htg ob ob' hx.r.l hy.r.l (soptList (k := c% "orderby") rfl (K (c% "orderby")))
      have h_fl := tinj_ExprOpt g tg htg fl fl' (c% "filter_") rfl hx.r.r.l hy.r.r.l (K (c% "filter_"))
      have h_w := tinj_WinOpt g tg htg w w' (c% "window") rfl hx.r.r.r hy.r.r.r (K (c% "window"))
      have h_ign : ign = ign' := senum2 (k := c% "null_treatment") (c := c% "NullTreatment") (y := c% "IGNORE") (n := c% "RESPECT") rfl (by decide) (by decide) (K (c% "null_treatment"))
      subst h_ign
      rw [mapExpr, mapExpr, h_as, h_ob, h_fl, h_w]
    | _ => exact absurd hk (Nat.ne_of_beq_eq_false rfl)
  | .listagg v sep ov ob, y, hx, hy, h => by
    have hk := tidx_Expr h
    cases y with
    | listagg v' sep' ov' ob' =>
      rw [Expr_obj_listagg, Expr_obj_listagg] at h
      have K := shownAt_of h (by exact nofun) (by exact nofun) (by dsimp only [List.map, typeAttr]; decide) (by dsimp only [List.map, typeAttr]; decide)
      have h_v := tinj_Expr g tg htg v v' hx.l hy.l (sinst (k := c% "value") rfl (Expr_inst _) (Expr_inst _) (K (c% "value")))
      have h_sep : sep = sep' := sstr (k := c% "separator") rfl (K (c% "separator"))
      subst h_sep
      have h_ov : ov = ov' := sfiller (k := c% "overflow_filler") rfl (K (c% "overflow_filler"))
      subst h_ov
      have h_ob := tinj_Ords g tg htg ob ob' hx.r hy.r (soptList (k := c% "orderby") rfl (K (c% "orderby")))
      rw [mapExpr, mapExpr, h_v, h_ob]
    | _ => exact absurd hk (Nat.ne_of_beq_eq_false rfl)
  | .curTime f p, y, hx, hy, h => by
    have hk := tidx_Expr h
    cases y with
    | curTime f' p' =>
      rw [Expr_obj_curTime, Expr_obj_curTime] at h
      have h_f : f = f' := Cls.curTime.inj (Cls_name_inj (name_of h (by exact nofun) (by exact nofun)))
      subst h_f
      have K := shownAt_of h (by exact nofun) (by exact nofun) (by dsimp only [List.map, typeAttr]; decide) (by dsimp only [List.map, typeAttr]; decide)
      have h_p : p = p' := sint (k := c% "precision") rfl (K (c% "precision"))
      subst h_p
      rfl
    | _ => exact absurd hk (Nat.ne_of_beq_eq_false rfl)
  | .session f, y, hx, hy, h => by
    have hk := tidx_Expr h
    cases y with
    | session f' =>
      rw [Expr_obj_session, Expr_obj_session] at h
      have h_f : f = f' := Cls.session.inj (Cls_name_inj (name_of h (by exact nofun) (by exact nofun)))
      subst h_f
      rfl
    | _ => exact absurd hk (Nat.ne_of_beq_eq_false rfl)
  | .normalize v fo, y, hx, hy, h => by
    have hk := tidx_Expr h
    cases y with
    | normalize v' fo' =>
      rw [Expr_obj_normalize, Expr_obj_normalize] at h
      have K := shownAt_of h (by exact nofun) (by exact nofun) (by dsimp only [List.map, typeAttr]; decide) (by dsimp only [List.map, typeAttr]; decide)
      have h_v := tinj_Expr g tg htg v v' hx hy (sinst (k := c% "string") rfl (Expr_inst _) (Expr_inst _) (K (c% "string")))
      have h_fo : fo = fo' := sForm (k := c% "normal_form") rfl (K (c% "normal_form"))
      subst h_fo
      rw [mapExpr, mapExpr, h_v]
    | _ => exact absurd hk (Nat.ne_of_beq_eq_false rfl)
  | .query q, y, hx, hy, h => by
    have hk := tidx_Expr h
    cases y with
    | query q' =>
      have h0 := tinj_Query g tg htg q q' hx hy h
      rw [mapExpr, mapExpr, h0]
    | _ => exact absurd hk (Nat.ne_of_beq_eq_false rfl)
theorem tinj_Ord (g : Expr → Expr) (tg : TableRef → TableRef) (htg : ∀ a b : TableRef, a.name = b.name → a.schema = b.schema → a.catalog = b.catalog → tg a = tg b) : ∀ x y : Ord, Typed (litsOrd x) → Typed (litsOrd y) → x.obj.tree = y.obj.tree → mapOrd g tg x = mapOrd g tg y
  | .mk v d nf, y, hx, hy, h => by
    cases y with
    | mk v' d' nf' =>
      rw [Ord_obj_mk, Ord_obj_mk] at h
      have K := shownAt_of h (by exact nofun) (by exact nofun) (by dsimp only [List.map, typeAttr]; decide) (by dsimp only [List.map, typeAttr]; decide)
      have h_v := tinj_Expr g tg htg v v' hx hy (sinst (k := c% "value") rfl (Expr_inst _) (Expr_inst _) (K (c% "value")))
      have h_d : d = d' := senum2 (k := c% "order_type") (c := c% "OrderType") (y := c% "DESC") (n := c% "ASC") rfl (by decide) (by decide) (K (c% "order_type"))
      subst h_d
      have h_nf : nf = nf' := senum2 (k := c% "null_order") (c := c% "NullOrder") (y := c% "FIRST") (n := c% "LAST") rfl (by decide) (by decide) (K (c% "null_order"))
      subst h_nf
      rw [mapOrd, mapOrd, h_v]
theorem tinj_Bound (g : Expr → Expr) (tg : TableRef → TableRef) (htg : ∀ a b : TableRef, a.name = b.name → a.schema = b.schema → a.catalog = b.catalog → tg a = tg b) : ∀ x y : Bound, Typed (litsBound x) → Typed (litsBound y) → x.obj.tree = y.obj.tree → mapBound g tg x = mapBound g tg y
  | .bounded t e, y, hx, hy, h => by
    have hk := tidx_Bound h
    cases y with
    | bounded t' e' =>
      rw [Bound_obj_bounded, Bound_obj_bounded] at h
      have K := shownAt_of h (by exact nofun) (by exact nofun) (by dsimp only [List.map, typeAttr]; decide) (by dsimp only [List.map, typeAttr]; decide)
      have h_t : t = t' := sBoundType (k := c% "bound_type") rfl (K (c% "bound_type"))
      subst h_t
      have h_e := tinj_Expr g tg htg e e' hx hy (sinst (k := c% "offset") rfl (Expr_inst _) (Expr_inst _) (K (c% "offset")))
      rw [mapBound, mapBound, h_e]
    | _ => exact absurd hk (Nat.ne_of_beq_eq_false rfl)
  | .unbounded t, y, hx, hy, h => by
    have hk := tidx_Bound h
    cases y with
    | unbounded t' =>
      rw [Bound_obj_unbounded, Bound_obj_unbounded] at h
      have K := shownAt_of h (by exact nofun) (by exact nofun) (by dsimp only [List.map, typeAttr]; decide) (by dsimp only [List.map, typeAttr]; decide)
      have h_t : t = t' := sBoundType (k := c% "bound_type") rfl (K (c% "bound_type"))
      subst h_t
      rfl
    | _ => exact absurd hk (Nat.ne_of_beq_eq_false rfl)
  | .current, y, hx, hy, h => by
    have hk := tidx_Bound h
    cases y with
    | current =>
      rfl
    | _ => exact absurd hk (Nat.ne_of_beq_eq_false rfl)
theorem tinj_Win (g : Expr → Expr) (tg : TableRef → TableRef) (htg : ∀ a b : TableRef, a.name = b.name → a.schema = b.schema → a.catalog = b.catalog → tg a = tg b) : ∀ x y : Win, Typed (litsWin x) → Typed (litsWin y) → x.obj.tree = y.obj.tree → mapWin g tg x = mapWin g tg y
  | .mk p ob ps f st en, y, hx, hy, h => by
    cases y with
    | mk p' ob' ps' f' st' en' =>
      rw [Win_obj_mk, Win_obj_mk] at h
      have K := shownAt_of h (by exact nofun) (by exact nofun) (by dsimp only [List.map, typeAttr]; decide) (by dsimp only [List.map, typeAttr]; decide)
      have h_p : p = p' := soptStr (k := c% "parent_window") rfl (K (c% "parent_window"))
      subst h_p
      have h_ob := tinj_Ords g tg htg ob ob' hx.l hy.l (soptList (k := c% "orderby") rfl (K (c% "orderby")))
      have h_ps := tinj_Exprs g tg htg ps ps' hx.r.l hy.r.l (soptList (k := c% "partitions") rfl (K (c% "partitions")))
      have h_f : f = f' := sFrameType (k := c% "frame_type") rfl (K (c% "frame_type"))
      subst h_f
      have h_st := tinj_Bound g tg htg st st' hx.r.r.l hy.r.r.l (sinst (k := c% "start_bound") rfl (Bound_inst _) (Bound_inst _) (K (c% "start_bound")))
      have h_en := tinj_Bound g tg htg en en' hx.r.r.r hy.r.r.r (sinst (k := c% "end_bound") rfl (Bound_inst _) (Bound_inst _) (K (c% "end_bound")))
      rw [mapWin, mapWin, h_ob, h_ps, h_st, h_en]
theorem tinj_Grp (g : Expr → Expr) (tg : TableRef → TableRef) (htg : ∀ a b : TableRef, a.name = b.name → a.schema = b.schema → a.catalog = b.catalog → tg a = tg b) : ∀ x y : Grp, Typed (litsGrp x) → Typed (litsGrp y) → x.obj.tree = y.obj.tree → mapGrp g tg x = mapGrp g tg y
  | .set vs, y, hx, hy, h => by
    have hk := tidx_Grp h
    cases y with
    | set vs' =>
      rw [Grp_obj_set, Grp_obj_set] at h
      have K := shownAt_of h (by exact nofun) (by exact nofun) (by dsimp only [List.map, typeAttr]; decide) (by dsimp only [List.map, typeAttr]; decide)
      have h_vs := tinj_Exprs g tg htg vs vs' hx hy (slist (k := c% "values") rfl (K (c% "values")))
      rw [mapGrp, mapGrp, h_vs]
    | _ => exact absurd hk (Nat.ne_of_beq_eq_false rfl)
  | .sets gs, y, hx, hy, h => by
    have hk := tidx_Grp h
    cases y with
    | sets gs' =>
      rw [Grp_obj_sets, Grp_obj_sets] at h
      have K := shownAt_of h (by exact nofun) (by exact nofun) (by dsimp only [List.map, typeAttr]; decide) (by dsimp only [List.map, typeAttr]; decide)
      have h_gs := tinj_Lists g tg htg gs gs' hx hy (slist (k := c% "groups") rfl (K (c% "groups")))
      rw [mapGrp, mapGrp, h_gs]
    | _ => exact absurd hk (Nat.ne_of_beq_eq_false rfl)
  | .cube vs, y, hx, hy, h => by
    have hk := tidx_Grp h
    cases y with
    | cube vs' =>
      rw [Grp_obj_cube, Grp_obj_cube] at h
      have K := shownAt_of h (by exact nofun) (by exact nofun) (by dsimp only [List.map, typeAttr]; decide) (by dsimp only [List.map, typeAttr]; decide)
      have h_vs := tinj_Exprs g tg htg vs vs' hx hy (slist (k := c% "values") rfl (K (c% "values")))
      rw [mapGrp, mapGrp, h_vs]
    | _ => exact absurd hk (Nat.ne_of_beq_eq_false rfl)
  | .rollup vs, y, hx, hy, h => by
    have hk := tidx_Grp h
    cases y with
    | rollup vs' =>
      rw [Grp_obj_rollup, Grp_obj_rollup] at h
      have K := shownAt_of h (by exact nofun) (by exact nofun) (by dsimp only [List.map, typeAttr]; decide) (by dsimp only [List.map, typeAttr]; decide)
      have h_vs := tinj_Exprs g tg htg vs vs' hx hy (slist (k := c% "values") rfl (K (c% "values")))
      rw [mapGrp, mapGrp, h_vs]
    | _ => exact absurd hk (Nat.ne_of_beq_eq_false rfl)
theorem tinj_GroupBy (g : Expr → Expr) (tg : TableRef → TableRef) (htg : ∀ a b : TableRef, a.name = b.name → a.schema = b.schema → a.catalog = b.catalog → tg a = tg b) : ∀ x y : GroupBy, Typed (litsGroupBy x) → Typed (litsGroupBy y) → x.obj.tree = y.obj.tree → mapGroupBy g tg x = mapGroupBy g tg y
  | .mk gs d, y, hx, hy, h => by
    cases y with
    | mk gs' d' =>
      rw [GroupBy_obj_mk, GroupBy_obj_mk] at h
      have K := shownAt_of h (by exact nofun) (by exact nofun) (by dsimp only [List.map, typeAttr]; decide) (by dsimp only [List.map, typeAttr]; decide)
      have h_gs := tinj_Grps g tg htg gs gs' hx hy (slist (k := c% "groups") rfl (K (c% "groups")))
      have h_d : d = d' := senum2 (k := c% "groupby_quantifier") (c := c% "SetQuantifier") (y := c% "DISTINCT") (n := c% "ALL") rfl (by decide) (by decide) (K (c% "groupby_quantifier"))
      subst h_d
      rw [mapGroupBy, mapGroupBy, h_gs]
theorem tinj_Named (g : Expr → Expr) (tg : TableRef → TableRef) (htg : ∀ a b : TableRef, a.name = b.name → a.schema = b.schema → a.catalog = b.catalog → tg a = tg b) : ∀ x y : Named, Typed (litsNamed x) → Typed (litsNamed y) → x.obj.tree = y.obj.tree → mapNamed g tg x = mapNamed g tg y
  | .mk r a cols, y, hx, hy, h => by
    cases y with
    | mk r' a' cols' =>
      rw [Named_obj_mk, Named_obj_mk] at h
      have K := shownAt_of h (by exact nofun) (by exact nofun) (by dsimp only [List.map, typeAttr]; decide) (by dsimp only [List.map, typeAttr]; decide)
      have h_r := tinj_Rel g tg htg r r' hx hy (sinst (k := c% "relation") rfl (Rel_inst _) (Rel_inst _) (K (c% "relation")))
      have h_a : a = a' := sstr (k := c% "alias") rfl (K (c% "alias"))
      subst h_a
      have h_cols : cols = cols' := snames (k := c% "column_aliases") rfl (K (c% "column_aliases"))
      subst h_cols
      rw [mapNamed, mapNamed, h_r]
theorem tinj_Rel (g : Expr → Expr) (tg : TableRef → TableRef) (htg : ∀ a b : TableRef, a.name = b.name → a.schema = b.schema → a.catalog = b.catalog → tg a = tg b) : ∀ x y : Rel, Typed (litsRel x) → Typed (litsRel y) → x.obj.tree = y.obj.tree → mapRel g tg x = mapRel g tg y
  | .table t, y, hx, hy, h => by
    have hk := tidx_Rel h
    cases y with
    | table t' =>
      obtain ⟨h1, h2, h3⟩ := tableTree h
      exact congrArg Rel.table (htg t t' h1 h2 h3)
    | _ => exact absurd hk (Nat.ne_of_beq_eq_false rfl)
  | .query q, y, hx, hy, h => by
    have hk := tidx_Rel h
    cases y with
    | query q' =>
      have h0 := tinj_Query g tg htg q q' hx hy h
      rw [mapRel, mapRel, h0]
    | _ => exact absurd hk (Nat.ne_of_beq_eq_false rfl)
  | .aliased n, y, hx, hy, h => by
    have hk := tidx_Rel h
    cases y with
    | aliased n' =>
      exact congrArg Rel.aliased (tinj_Named g tg htg n n' hx hy h)
    | _ => exact absurd hk (Nat.ne_of_beq_eq_false rfl)
  | .join l r t nat cr, y, hx, hy, h => by
    have hk := tidx_Rel h
    cases y with
    | join l' r' t' nat' cr' =>
      rw [Rel_obj_join, Rel_obj_join] at h
      have K := shownAt_of h (by exact nofun) (by exact nofun) (by dsimp only [List.map, typeAttr]; decide) (by dsimp only [List.map, typeAttr]; decide)
      have K2 := shownAt_of (sinst (k := c% "config") rfl ⟨_, _, rfl⟩ ⟨_, _, rfl⟩ (K (c% "config"))) (by exact nofun) (by exact nofun) (by dsimp only [List.map]; decide) (by dsimp only [List.map]; decide)
      have h_l := tinj_Rel g tg htg l l' hx.l hy.l (sinst (k := c% "left_relation") rfl (Rel_inst _) (Rel_inst _) (K (c% "left_relation")))
      have h_r := tinj_Rel g tg htg r r' hx.r.l hy.r.l (sinst (k := c% "right_relation") rfl (Rel_inst _) (Rel_inst _) (K (c% "right_relation")))
      have h_t : t = t' := sJoinType (k := c% "join_type") rfl (K2 (c% "join_type"))
      subst h_t
      have h_nat : nat = nat' := sbool (k := c% "natural") rfl (K2 (c% "natural"))
      subst h_nat
      have h_cr := tinj_CritOpt g tg htg cr cr' (c% "criteria") rfl hx.r.r hy.r.r (K2 (c% "criteria"))
      rw [mapRel, mapRel, h_l, h_r, h_cr]
    | _ => exact absurd hk (Nat.ne_of_beq_eq_false rfl)
  | .unnest as ord, y, hx, hy, h => by
    have hk := tidx_Rel h
    cases y with
    | unnest as' ord' =>
      rw [Rel_obj_unnest, Rel_obj_unnest] at h
      have K := shownAt_of h (by exact nofun) (by exact nofun) (by dsimp only [List.map, typeAttr]; decide) (by dsimp only [List.map, typeAttr]; decide)
      have h_as := tinj_Exprs g tg htg as as' hx hy (slist (k := c% "arrays") rfl (K (c% "arrays")))
      have h_ord : ord = ord' := sbool (k := c% "with_ordinality") rfl (K (c% "with_ordinality"))
      subst h_ord
      rw [mapRel, mapRel, h_as]
    | _ => exact absurd hk (Nat.ne_of_beq_eq_false rfl)
  | .lateral q, y, hx, hy, h => by
    have hk := tidx_Rel h
    cases y with
    | lateral q' =>
      rw [Rel_obj_lateral, Rel_obj_lateral] at h
      have K := shownAt_of h (by exact nofun) (by exact nofun) (by dsimp only [List.map, typeAttr]; decide) (by dsimp only [List.map, typeAttr]; decide)
      have h_q := tinj_Query g tg htg q q' hx hy (sinst (k := c% "subquery") rfl (Query_inst' _) (Query_inst' _) (K (c% "subquery")))
      rw [mapRel, mapRel, h_q]
    | _ => exact absurd hk (Nat.ne_of_beq_eq_false rfl)
  | .sample r t p, y, hx, hy, h => by
    have hk := tidx_Rel h
    cases y with
    | sample r' t' p' =>
      rw [Rel_obj_sample, Rel_obj_sample] at h
      have K := shownAt_of h (by exact nofun) (by exact nofun) (by dsimp only [List.map, typeAttr]; decide) (by dsimp only [List.map, typeAttr]; decide)
      have h_r := tinj_Rel g tg htg r r' hx.l hy.l (sinst (k := c% "relation") rfl (Rel_inst _) (Rel_inst _) (K (c% "relation")))
      have h_t : t = t' := sSampleType (k := c% "sample_type") rfl (K (c% "sample_type"))
      subst h_t
      have h_p := tinj_Expr g tg htg p p' hx.r hy.r (sinst (k := c% "percentage") rfl (Expr_inst _) (Expr_inst _) (K (c% "percentage")))
      rw [mapRel, mapRel, h_r, h_p]
    | _ => exact absurd hk (Nat.ne_of_beq_eq_false rfl)
theorem tinj_Crit (g : Expr → Expr) (tg : TableRef → TableRef) (htg : ∀ a b : TableRef, a.name = b.name → a.schema = b.schema → a.catalog = b.catalog → tg a = tg b) : ∀ x y : Crit, Typed (litsCrit x) → Typed (litsCrit y) → x.obj.tree = y.obj.tree → mapCrit g tg x = mapCrit g tg y
  | .using cols, y, hx, hy, h => by
    have hk := tidx_Crit h
    cases y with
    | «using» cols' =>
      rw [Crit_obj_using, Crit_obj_using] at h
      have K := shownAt_of h (by exact nofun) (by exact nofun) (by dsimp only [List.map, typeAttr]; decide) (by dsimp only [List.map, typeAttr]; decide)
      have h_cols : cols = cols' := sstrs (k := c% "column_names") rfl (K (c% "column_names"))
      subst h_cols
      rfl
    | _ => exact absurd hk (Nat.ne_of_beq_eq_false rfl)
  | .on e, y, hx, hy, h => by
    have hk := tidx_Crit h
    cases y with
    | on e' =>
      rw [Crit_obj_on, Crit_obj_on] at h
      have K := shownAt_of h (by exact nofun) (by exact nofun) (by dsimp only [List.map, typeAttr]; decide) (by dsimp only [List.map, typeAttr]; decide)
      have h_e := tinj_Expr g tg htg e e' hx hy (sinst (k := c% "constraint") rfl (Expr_inst _) (Expr_inst _) (K (c% "constraint")))
      rw [mapCrit, mapCrit, h_e]
    | _ => exact absurd hk (Nat.ne_of_beq_eq_false rfl)
theorem tinj_ExprOpt (g : Expr → Expr) (tg : TableRef → TableRef) (htg : ∀ a b : TableRef, a.name = b.name → a.schema = b.schema → a.catalog = b.catalog → tg a = tg b) : ∀ (x y : Option Expr) (k : Str), hiddenKey k = false → Typed (litsExprOpt x) → Typed (litsExprOpt y) →
    shown k (Expr.objOpt x) = shown k (Expr.objOpt y) → mapExprOpt g tg x = mapExprOpt g tg y
  | none, none, _, _, _, _, _ => rfl
  | none, some b, _, hk, _, _, h => absurd h (sOpt hk (Expr_inst b))
  | some a, none, _, hk, _, _, h => absurd h.symm (sOpt hk (Expr_inst a))
  | some a, some b, _, hk, hx, hy, h => congrArg some (tinj_Expr g tg htg a b hx hy (sinst hk (Expr_inst a) (Expr_inst b) h))
theorem tinj_Exprs (g : Expr → Expr) (tg : TableRef → TableRef) (htg : ∀ a b : TableRef, a.name = b.name → a.schema = b.schema → a.catalog = b.catalog → tg a = tg b) : ∀ x y : List Expr, Typed (litsExprs x) → Typed (litsExprs y) → Obj.trees (Expr.objs x) = Obj.trees (Expr.objs y) → mapExprs g tg x = mapExprs g tg y
  | [], [], _, _, _ => rfl
  | [], _ :: _, _, _, h => nomatch h
  | _ :: _, [], _, _, h => nomatch h
  | a :: r, b :: r', hx, hy, h => by
    have h1 := (List.cons.inj h).1
    rw [mapExprs, mapExprs, tinj_Expr g tg htg a b hx.l hy.l h1, tinj_Exprs g tg htg r r' hx.r hy.r (List.cons.inj h).2]
theorem tinj_Lists (g : Expr → Expr) (tg : TableRef → TableRef) (htg : ∀ a b : TableRef, a.name = b.name → a.schema = b.schema → a.catalog = b.catalog → tg a = tg b) : ∀ x y : List (List Expr), Typed (litsLists x) → Typed (litsLists y) → Obj.trees (Expr.objSets x) = Obj.trees (Expr.objSets y) → mapLists g tg x = mapLists g tg y
  | [], [], _, _, _ => rfl
  | [], _ :: _, _, _, h => nomatch h
  | _ :: _, [], _, _, h => nomatch h
  | a :: r, b :: r', hx, hy, h => by
    have h1 := slist (k := c% "values") rfl (shownAt_of (List.cons.inj h).1 (by exact nofun) (by exact nofun) (by dsimp only [List.map]; decide) (by dsimp only [List.map]; decide) (c% "values"))
    rw [mapLists, mapLists, tinj_Exprs g tg htg a b hx.l hy.l h1, tinj_Lists g tg htg r r' hx.r hy.r (List.cons.inj h).2]
theorem tinj_Whens (g : Expr → Expr) (tg : TableRef → TableRef) (htg : ∀ a b : TableRef, a.name = b.name → a.schema = b.schema → a.catalog = b.catalog → tg a = tg b) : ∀ x y : List (Expr × Expr), Typed (litsWhens x) → Typed (litsWhens y) → Obj.trees (Expr.objWhens x) = Obj.trees (Expr.objWhens y) → mapWhens g tg x = mapWhens g tg y
  | [], [], _, _, _ => rfl
  | [], (_, _) :: _, _, _, h => nomatch h
  | (_, _) :: _, [], _, _, h => nomatch h
  | (a, b) :: r, (a', b') :: r', hx, hy, h => by
    have K := shownAt_of (List.cons.inj h).1 (by exact nofun) (by exact nofun) (by dsimp only [List.map]; decide) (by dsimp only [List.map]; decide)
    rw [mapWhens, mapWhens, tinj_Expr g tg htg a a' hx.l hy.l (sinst (k := c% "condition") rfl (Expr_inst _) (Expr_inst _) (K (c% "condition"))), tinj_Expr g tg htg b b' hx.r.l hy.r.l (sinst (k := c% "value") rfl (Expr_inst _) (Expr_inst _) (K (c% "value"))), tinj_Whens g tg htg r r' hx.r.r hy.r.r (List.cons.inj h).2]
theorem tinj_Ords (g : Expr → Expr) (tg : TableRef → TableRef) (htg : ∀ a b : TableRef, a.name = b.name → a.schema = b.schema → a.catalog = b.catalog → tg a = tg b) : ∀ x y : List Ord, Typed (litsOrds x) → Typed (litsOrds y) → Obj.trees (Ord.objs x) = Obj.trees (Ord.objs y) → mapOrds g tg x = mapOrds g tg y
  | [], [], _, _, _ => rfl
  | [], _ :: _, _, _, h => nomatch h
  | _ :: _, [], _, _, h => nomatch h
  | a :: r, b :: r', hx, hy, h => by
    have h1 := (List.cons.inj h).1
    rw [mapOrds, mapOrds, tinj_Ord g tg htg a b hx.l hy.l h1, tinj_Ords g tg htg r r' hx.r hy.r (List.cons.inj h).2]
theorem tinj_WinOpt (g : Expr → Expr) (tg : TableRef → TableRef) (htg : ∀ a b : TableRef, a.name = b.name → a.schema = b.schema → a.catalog = b.catalog → tg a = tg b) : ∀ (x y : Option Win) (k : Str), hiddenKey k = false → Typed (litsWinOpt x) → Typed (litsWinOpt y) →
    shown k (Win.objOpt x) = shown k (Win.objOpt y) → mapWinOpt g tg x = mapWinOpt g tg y
  | none, none, _, _, _, _, _ => rfl
  | none, some b, _, hk, _, _, h => absurd h (sOpt hk (Win_inst b))
  | some a, none, _, hk, _, _, h => absurd h.symm (sOpt hk (Win_inst a))
  | some a, some b, _, hk, hx, hy, h => congrArg some (tinj_Win g tg htg a b hx hy (sinst hk (Win_inst a) (Win_inst b) h))
theorem tinj_Grps (g : Expr → Expr) (tg : TableRef → TableRef) (htg : ∀ a b : TableRef, a.name = b.name → a.schema = b.schema → a.catalog = b.catalog → tg a = tg b) : ∀ x y : List Grp, Typed (litsGrps x) → Typed (litsGrps y) → Obj.trees (Grp.objs x) = Obj.trees (Grp.objs y) → mapGrps g tg x = mapGrps g tg y
  | [], [], _, _, _ => rfl
  | [], _ :: _, _, _, h => nomatch h
  | _ :: _, [], _, _, h => nomatch h
  | a :: r, b :: r', hx, hy, h => by
    have h1 := (List.cons.inj h).1
    rw [mapGrps, mapGrps, tinj_Grp g tg htg a b hx.l hy.l h1, tinj_Grps g tg htg r r' hx.r hy.r (List.cons.inj h).2]
theorem tinj_GroupByOpt (g : Expr → Expr) (tg : TableRef → TableRef) (htg : ∀ a b : TableRef, a.name = b.name → a.schema = b.schema → a.catalog = b.catalog → tg a = tg b) : ∀ (x y : Option GroupBy) (k : Str), hiddenKey k = false → Typed (litsGroupByOpt x) → Typed (litsGroupByOpt y) →
    shown k (GroupBy.objOpt x) = shown k (GroupBy.objOpt y) → mapGroupByOpt g tg x = mapGroupByOpt g tg y
  | none, none, _, _, _, _, _ => rfl
  | none, some b, _, hk, _, _, h => absurd h (sOpt hk (GroupBy_inst b))
  | some a, none, _, hk, _, _, h => absurd h.symm (sOpt hk (GroupBy_inst a))
  | some a, some b, _, hk, hx, hy, h => congrArg some (tinj_GroupBy g tg htg a b hx hy (sinst hk (GroupBy_inst a) (GroupBy_inst b) h))
theorem tinj_NamedWins (g : Expr → Expr) (tg : TableRef → TableRef) (htg : ∀ a b : TableRef, a.name = b.name → a.schema = b.schema → a.catalog = b.catalog → tg a = tg b) : ∀ x y : List (Str × Win), Typed (litsNamedWins x) → Typed (litsNamedWins y) → Obj.dictTrees (Win.objNamed x) = Obj.dictTrees (Win.objNamed y) → mapNamedWins g tg x = mapNamedWins g tg y
  | [], [], _, _, _ => rfl
  | [], (_, _) :: _, _, _, h => nomatch h
  | (_, _) :: _, [], _, _, h => nomatch h
  | (n, a) :: r, (n', a') :: r', hx, hy, h => by
    have h0 := List.cons.inj (show PTree.node n a.obj.tree.kids :: Obj.dictTrees (Win.objNamed r) = PTree.node n' a'.obj.tree.kids :: Obj.dictTrees (Win.objNamed r') from h)
    rw [mapNamedWins, mapNamedWins, (PTree.node.inj h0.1).1, tinj_Win g tg htg a a' hx.l hy.l (winTree (PTree.node.inj h0.1).2), tinj_NamedWins g tg htg r r' hx.r hy.r h0.2]
theorem tinj_Nameds (g : Expr → Expr) (tg : TableRef → TableRef) (htg : ∀ a b : TableRef, a.name = b.name → a.schema = b.schema → a.catalog = b.catalog → tg a = tg b) : ∀ x y : List Named, Typed (litsNameds x) → Typed (litsNameds y) → Obj.trees (Named.objs x) = Obj.trees (Named.objs y) → mapNameds g tg x = mapNameds g tg y
  | [], [], _, _, _ => rfl
  | [], _ :: _, _, _, h => nomatch h
  | _ :: _, [], _, _, h => nomatch h
  | a :: r, b :: r', hx, hy, h => by
    have h1 := (List.cons.inj h).1
    rw [mapNameds, mapNameds, tinj_Named g tg htg a b hx.l hy.l h1, tinj_Nameds g tg htg r r' hx.r hy.r (List.cons.inj h).2]
theorem tinj_RelOpt (g : Expr → Expr) (tg : TableRef → TableRef) (htg : ∀ a b : TableRef, a.name = b.name → a.schema = b.schema → a.catalog = b.catalog → tg a = tg b) : ∀ (x y : Option Rel) (k : Str), hiddenKey k = false → Typed (litsRelOpt x) → Typed (litsRelOpt y) →
    shown k (Rel.objOpt x) = shown k (Rel.objOpt y) → mapRelOpt g tg x = mapRelOpt g tg y
  | none, none, _, _, _, _, _ => rfl
  | none, some b, _, hk, _, _, h => absurd h (sOpt hk (Rel_inst b))
  | some a, none, _, hk, _, _, h => absurd h.symm (sOpt hk (Rel_inst a))
  | some a, some b, _, hk, hx, hy, h => congrArg some (tinj_Rel g tg htg a b hx hy (sinst hk (Rel_inst a) (Rel_inst b) h))
theorem tinj_CritOpt (g : Expr → Expr) (tg : TableRef → TableRef) (htg : ∀ a b : TableRef, a.name = b.name → a.schema = b.schema → a.catalog = b.catalog → tg a = tg b) : ∀ (x y : Option Crit) (k : Str), hiddenKey k = false → Typed (litsCritOpt x) → Typed (litsCritOpt y) →
    shown k (Crit.objOpt x) = shown k (Crit.objOpt y) → mapCritOpt g tg x = mapCritOpt g tg y
  | none, none, _, _, _, _, _ => rfl
  | none, some b, _, hk, _, _, h => absurd h (sOpt hk (Crit_inst b))
  | some a, none, _, hk, _, _, h => absurd h.symm (sOpt hk (Crit_inst a))
  | some a, some b, _, hk, hx, hy, h => congrArg some (tinj_Crit g tg htg a b hx hy (sinst hk (Crit_inst a) (Crit_inst b) h))
theorem tinj_Else (g : Expr → Expr) (tg : TableRef → TableRef) (htg : ∀ a b : TableRef, a.name = b.name → a.schema = b.schema → a.catalog = b.catalog → tg a = tg b) : ∀ x y : Option Expr, Typed (litsExprOpt x) → Typed (litsExprOpt y) →
    shown (c% "else_") (Expr.objElse x) = shown (c% "else_") (Expr.objElse y) → mapExprOpt g tg x = mapExprOpt g tg y
  | none, none, _, _, _ => rfl
  | none, some b, _, _, h => absurd h (sOpt rfl ⟨_, _, rfl⟩)
  | some a, none, _, _, h => absurd h.symm (sOpt rfl ⟨_, _, rfl⟩)
  | some a, some b, hx, hy, h => by
    have K := shownAt_of (sinst (k := c% "else_") rfl ⟨_, _, rfl⟩ ⟨_, _, rfl⟩ h) (by exact nofun) (by exact nofun) (by dsimp only [List.map]; decide) (by dsimp only [List.map]; decide)
    exact congrArg some (tinj_Expr g tg htg a b hx hy (sinst (k := c% "value") rfl (Expr_inst _) (Expr_inst _) (K (c% "value"))))
theorem tinj_Query (g : Expr → Expr) (tg : TableRef → TableRef) (htg : ∀ a b : TableRef, a.name = b.name → a.schema = b.schema → a.catalog = b.catalog → tg a = tg b) : ∀ x y : Query, Typed (litsQuery x) → Typed (litsQuery y) → x.obj.tree = y.obj.tree → mapQuery g tg x = mapQuery g tg y
  | .mk b off lim ob w, .mk b' off' lim' ob' w', hx, hy, h => by
    rw [Query_obj_mk, Query_obj_mk] at h
    have hc := Cls_name_inj (name_of h (QBody_data _) (QBody_data _))
    have K := shownAt_of h (QBody_data _) (QBody_data _) (query_nodup b) (query_nodup b')
    have h_off : off = off' := soptInt (k := c% "offset") rfl (K (c% "offset"))
    have h_lim : lim = lim' := soptInt (k := c% "limit") rfl (K (c% "limit"))
    have h_ob := tinj_Ords g tg htg ob ob' hx.r.l hy.r.l (soptList (k := c% "orderby") rfl (K (c% "orderby")))
    have h_w := tinj_Nameds g tg htg w w' hx.r.r hy.r.r (swith (k := c% "with_") rfl (K (c% "with_")))
    have h_b := tinj_QBody g tg htg b b' hx.l hy.l hc (fun k hk => by
      have := K k
      rwa [shownAt_type (by rintro rfl; exact hk (by simp)), shownAt_type (by rintro rfl; exact hk (by simp)), shownAt_skip (by rintro rfl; exact hk (by simp)), shownAt_skip (by rintro rfl; exact hk (by simp)), shownAt_skip (by rintro rfl; exact hk (by simp)), shownAt_skip (by rintro rfl; exact hk (by simp)), shownAt_skip (by rintro rfl; exact hk (by simp)), shownAt_skip (by rintro rfl; exact hk (by simp)), shownAt_skip (by rintro rfl; exact hk (by simp)), shownAt_skip (by rintro rfl; exact hk (by simp))] at this)
    subst h_off; subst h_lim
    rw [mapQuery, mapQuery, h_b, h_ob, h_w]
theorem tinj_QBody (g : Expr → Expr) (tg : TableRef → TableRef) (htg : ∀ a b : TableRef, a.name = b.name → a.schema = b.schema → a.catalog = b.catalog → tg a = tg b) : ∀ x y : QBody, Typed (litsQBody x) → Typed (litsQBody y) → x.cls = y.cls →
    (∀ k, k ∉ [c% "data_type", c% "offset", c% "limit", c% "orderby", c% "with_"] → shownAt k x.attrs = shownAt k y.attrs) → mapQBody g tg x = mapQBody g tg y
  | .select items fr wh gb hv d wins, y, hx, hy, hc, K => by
    cases y with
    | select items' fr' wh' gb' hv' d' wins' =>
      have h_items := tinj_Exprs g tg htg items items' hx.l hy.l (slist (k := c% "select") rfl (K (c% "select") (by decide)))
      have h_fr := tinj_RelOpt g tg htg fr fr' (c% "from_") rfl hx.r.l hy.r.l (K (c% "from_") (by decide))
      have h_wh := tinj_ExprOpt g tg htg wh wh' (c% "where") rfl hx.r.r.l hy.r.r.l (K (c% "where") (by decide))
      have h_gb := tinj_GroupByOpt g tg htg gb gb' (c% "groupby") rfl hx.r.r.r.l hy.r.r.r.l (K (c% "groupby") (by decide))
      have h_hv := tinj_ExprOpt g tg htg hv hv' (c% "having") rfl hx.r.r.r.r.l hy.r.r.r.r.l (K (c% "having") (by decide))
      have h_d : d = d' := senum2 (k := c% "select_quantifier") (c := c% "SetQuantifier") (y := c% "DISTINCT") (n := c% "ALL") rfl (by decide) (by decide) (K (c% "select_quantifier") (by decide))
      have h_wins := tinj_NamedWins g tg htg wins wins' hx.r.r.r.r.r hy.r.r.r.r.r (swindow (k := c% "window") rfl (K (c% "window") (by decide)))
      subst h_d
      rw [mapQBody, mapQBody, h_items, h_fr, h_wh, h_gb, h_hv, h_wins]
    | _ => exact nomatch hc
  | .set k l r d, y, hx, hy, hc, K => by
    cases y with
    | set k' l' r' d' =>
      have h_k : k = k' := Cls.setQuery.inj hc
      have h_l := tinj_Query g tg htg l l' hx.l hy.l (sinst (k := c% "left_query") rfl (Query_inst' _) (Query_inst' _) (K (c% "left_query") (by decide)))
      have h_r := tinj_Query g tg htg r r' hx.r hy.r (sinst (k := c% "right_query") rfl (Query_inst' _) (Query_inst' _) (K (c% "right_query") (by decide)))
      have h_d : d = d' := senum2 (k := c% "set_quantifier") (c := c% "SetQuantifier") (y := c% "DISTINCT") (n := c% "ALL") rfl (by decide) (by decide) (K (c% "set_quantifier") (by decide))
      subst h_k; subst h_d
      rw [mapQBody, mapQBody, h_l, h_r]
    | _ => exact nomatch hc
  | .table t, y, hx, hy, hc, K => by
    cases y with
    | table t' =>
      obtain ⟨h1, h2, h3⟩ := tableTree (sinst (k := c% "table") rfl ⟨_, _, rfl⟩ ⟨_, _, rfl⟩ (K (c% "table") (by decide)))
      exact congrArg QBody.table (htg t t' h1 h2 h3)
    | _ => exact nomatch hc
  | .values es, y, hx, hy, hc, K => by
    cases y with
    | values es' => rw [mapQBody, mapQBody, tinj_Exprs g tg htg es es' hx hy (slist (k := c% "exprs") rfl (K (c% "exprs") (by decide)))]
    | _ => exact nomatch hc
end

end Treeno
