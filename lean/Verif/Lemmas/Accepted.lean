import Verif.Lemmas.Handed
/-! The children of an accepted node are accepted nodes. -/
namespace Treeno
open Spec

/-- An object that is an accepted node. -/
def Fine (k : Obj) : Prop := ∃ m : Node, m.Accepted ∧ k = m.obj
def Fines (l : List Obj) : Prop := ∀ k ∈ l, Fine k

theorem gs_nil : Fines [] := nofun
theorem gs_cons {k l} (h : Fine k) (hl : Fines l) : Fines (k :: l) := by
  intro x hx
  rcases List.mem_cons.mp hx with rfl | hx
  · exact h
  · exact hl x hx
theorem gs_app {l m} (h : Fines l) (hl : Fines m) : Fines (l ++ m) := by
  intro x hx
  rcases List.mem_append.mp hx with hx | hx
  · exact h x hx
  · exact hl x hx
theorem gs_map {α} {f : α → Obj} {l : List α} (h : ∀ a ∈ l, Fine (f a)) : Fines (l.map f) := by
  intro x hx
  obtain ⟨a, ha, rfl⟩ := List.mem_map.mp hx
  exact h a ha

theorem g_expr {e : Expr} {t} (h : e.check = .ok t) : Fine e.obj := ⟨.expr e, ⟨t, h⟩, rfl⟩
theorem g_query {e : Query} {t} (h : e.check = .ok t) : Fine e.obj := ⟨.query e, ⟨t, h⟩, rfl⟩
theorem g_rel {r : Rel} {u} (h : r.check = .ok u) : Fine r.obj := ⟨.rel r, h, rfl⟩
theorem g_bound {r : Bound} {u} (h : r.check = .ok u) : Fine r.obj := ⟨.bound r, h, rfl⟩
theorem g_win {r : Win} {u} (h : r.check = .ok u) : Fine r.obj := ⟨.win r, h, rfl⟩

theorem gs_objs : ∀ (l : List Expr) (ts), Expr.checks l = .ok ts → Fines (Expr.objs l)
  | [], _, _ => gs_nil
  | e :: r, ts, h => by
    rw [Expr_checks_cons] at h
    obtain ⟨t, he, h⟩ := bind_ok h
    obtain ⟨us, hu, h⟩ := bind_ok h
    exact gs_cons (g_expr he) (gs_objs r us hu)
theorem gs_whens : ∀ (l : List (Expr × Expr)) (ts), Expr.checkWhens l = .ok ts → Fines (Expr.objWhens l)
  | [], _, _ => gs_nil
  | (c, v) :: r, ts, h => by
    rw [Expr_checkWhens_cons] at h
    obtain ⟨t, hc, h⟩ := bind_ok h
    obtain ⟨t', hv, h⟩ := bind_ok h
    obtain ⟨us, hu, h⟩ := bind_ok h
    exact gs_cons ⟨.when c v, ⟨⟨t, hc⟩, t', hv⟩, rfl⟩ (gs_whens r us hu)
theorem gs_ords : ∀ (l : List Ord) (u), Ord.checks l = .ok u → Fines (Ord.objs l)
  | [], _, _ => gs_nil
  | .mk v d n :: r, u, h => by
    rw [Ord_checks_cons] at h
    obtain ⟨t, hv, h⟩ := bind_ok h
    exact gs_cons ⟨.ord (.mk v d n), ⟨t, hv⟩, rfl⟩ (gs_ords r u h)
theorem gs_sets : ∀ (l : List (List Expr)) (u), Expr.checkLists l = .ok u → Fines (Expr.objSets l)
  | [], _, _ => gs_nil
  | vs :: r, u, h => by
    rw [Expr_checkLists_cons] at h
    obtain ⟨t, hv, h⟩ := bind_ok h
    refine gs_cons ⟨.grp (.set vs), ?_, rfl⟩ (gs_sets r u h)
    show Grp.check (.set vs) = .ok ()
    rw [Grp_check_set, hv]; rfl
theorem gs_grps : ∀ (l : List Grp) (u), Grp.checks l = .ok u → Fines (Grp.objs l)
  | [], _, _ => gs_nil
  | g :: r, u, h => by
    rw [Grp_checks_cons] at h
    obtain ⟨t, hv, h⟩ := bind_ok h
    exact gs_cons ⟨.grp g, hv, rfl⟩ (gs_grps r u h)
theorem gs_nameds : ∀ (l : List Named) (u), Named.checks l = .ok u → Fines (Named.objs l)
  | [], _, _ => gs_nil
  | g :: r, u, h => by
    rw [Named_checks_cons] at h
    obtain ⟨t, hv, h⟩ := bind_ok h
    exact gs_cons ⟨.rel (.aliased g), hv, rfl⟩ (gs_nameds r u h)
theorem gs_wins : ∀ (l : List (Str × Win)) (u), Win.checkNamed l = .ok u → Fines (l.map fun nw => nw.2.obj)
  | [], _, _ => gs_nil
  | (n, w) :: r, u, h => by
    rw [Win_checkNamed_cons] at h
    obtain ⟨t, hv, h⟩ := bind_ok h
    exact gs_cons (g_win hv) (gs_wins r u h)

theorem gs_opt : ∀ (x : Option Expr) (u), Expr.checkOpt x = .ok u → Fines (optKid Expr.obj x)
  | none, _, _ => gs_nil
  | some e, u, h => by
    rw [Expr_checkOpt_some] at h
    obtain ⟨t, hv, h⟩ := bind_ok h
    exact gs_cons (g_expr hv) gs_nil
theorem gs_else : ∀ (x : Option Expr) (u), Expr.checkOpt x = .ok u → Fines (optKid (fun e => (Node.else_ e).obj) x)
  | none, _, _ => gs_nil
  | some e, u, h => by
    rw [Expr_checkOpt_some] at h
    obtain ⟨t, hv, h⟩ := bind_ok h
    exact gs_cons ⟨.else_ e, ⟨t, hv⟩, rfl⟩ gs_nil
theorem gs_filler : ∀ (x : Option (Str × Bool)), Fines (optKid (fun fc => (Node.filler fc.1 fc.2).obj) x)
  | none => gs_nil
  | some fc => gs_cons ⟨.filler fc.1 fc.2, trivial, rfl⟩ gs_nil
theorem gs_winOpt : ∀ (x : Option Win) (u), Win.checkOpt x = .ok u → Fines (optKid Win.obj x)
  | none, _, _ => gs_nil
  | some _, _, h => gs_cons (g_win h) gs_nil
theorem gs_relOpt : ∀ (x : Option Rel) (u), Rel.checkOpt x = .ok u → Fines (optKid Rel.obj x)
  | none, _, _ => gs_nil
  | some _, _, h => gs_cons (g_rel h) gs_nil
theorem gs_groupByOpt : ∀ (x : Option GroupBy) (u), GroupBy.checkOpt x = .ok u → Fines (optKid GroupBy.obj x)
  | none, _, _ => gs_nil
  | some g, _, h => gs_cons ⟨.groupBy g, h, rfl⟩ gs_nil
theorem gs_critOpt : ∀ (x : Option Crit) (u), Crit.checkOpt x = .ok u → Fines (optKid Crit.obj x)
  | none, _, _ => gs_nil
  | some g, _, h => gs_cons ⟨.crit g, h, rfl⟩ gs_nil

theorem gs_qbody : ∀ (b : QBody) (t), b.check = .ok t → Fines b.kids
  | .select items fr wh gb hv d wins, t, h => by
    rw [QBody_check_select] at h
    obtain ⟨_, h1, h⟩ := bind_ok h
    obtain ⟨_, h2, h⟩ := bind_ok h
    obtain ⟨_, h3, h⟩ := bind_ok h
    obtain ⟨_, h4, h⟩ := bind_ok h
    obtain ⟨_, h5, h⟩ := bind_ok h
    obtain ⟨_, h6, h⟩ := bind_ok h
    exact gs_app (gs_objs _ _ h1) (gs_app (gs_relOpt _ _ h2) (gs_app (gs_opt _ _ h3) (gs_app (gs_groupByOpt _ _ h4)
      (gs_app (gs_opt _ _ h5) (gs_wins _ _ h6)))))
  | .set k l r d, t, h => by
    rw [QBody_check_set] at h
    obtain ⟨_, h1, h⟩ := bind_ok h
    obtain ⟨_, h2, h⟩ := bind_ok h
    exact gs_cons (g_query h1) (gs_cons (g_query h2) gs_nil)
  | .table t, _, h => by
    rw [QBody_check_table] at h
    obtain ⟨_, h1, h⟩ := bind_ok h
    exact gs_cons ⟨.table t, h1, rfl⟩ gs_nil
  | .values es, t, h => by
    rw [QBody_check_values] at h
    obtain ⟨_, h1, h⟩ := bind_ok h
    exact gs_objs _ _ h1

theorem gs_query (q : Query) (t) (h : q.check = .ok t) : Fines (children q.obj) := by
  obtain ⟨b, off, lim, ob, w⟩ := q
  rw [Query_check_mk] at h
  obtain ⟨_, h1, h⟩ := bind_ok h
  obtain ⟨_, h2, h⟩ := bind_ok h
  rw [query_children]
  exact gs_app (gs_ords _ _ h2) (gs_app (gs_nameds _ _ h1) (gs_qbody b t h))

theorem fn_children (f : Fn) (as : List Expr) : (children (Expr.func f as).obj).Perm (Expr.objs as) := by
  rw [Expr_obj_func, children_type]
  by_cases hc : f = .concat ∨ f = .coalesce ∨ f = .fromUnixtime
  · rcases hc with rfl | rfl | rfl
    · show (held (.list (Expr.objs as)) ++ []).Perm _
      rw [held_objs, List.append_nil]
    · show (held (.list (Expr.objs as)) ++ []).Perm _
      rw [held_objs, List.append_nil]
    · rcases as with _ | ⟨a, _ | ⟨b, _ | ⟨c, _ | ⟨d, r⟩⟩⟩⟩
      case cons.cons.cons.nil =>
        show (held a.obj ++ ([] ++ (held b.obj ++ (held c.obj ++ [])))).Perm _
        rw [held_expr, held_expr, held_expr]; exact .refl _
      · exact .refl _
      · exact .of_eq (args_children (.fn .fromUnixtime) [c% "value", c% "zone"] [a])
      · exact .of_eq (args_children (.fn .fromUnixtime) [c% "value", c% "zone"] [a, b])
      · exact .of_eq (args_children (.fn .fromUnixtime) [c% "value", c% "zone"] (a :: b :: c :: d :: r))
  · have e : fnAttrs f (Expr.objs as) = argAttrs f.attrNames (Expr.objs as) := by
      cases f
      case concat => exact absurd (.inl rfl) hc
      case coalesce => exact absurd (.inr (.inl rfl)) hc
      case fromUnixtime => exact absurd (.inr (.inr rfl)) hc
      all_goals rfl
    rw [e, args_children]

theorem gs_expr (e : Expr) (t) (h : e.check = .ok t) : Fines (children e.obj) := by
  cases e
  case query q => exact gs_query q t h
  case lit v t => rw [Expr_obj_lit]; kids; exact gs_nil
  case field n tn t => rw [Expr_obj_field]; kids; exact gs_nil
  case fieldOf n b t =>
    rw [Expr_check_fieldOf] at h
    obtain ⟨_, h1, h⟩ := bind_ok h
    rw [Expr_obj_fieldOf]; kids; exact gs_cons (g_expr h1) gs_nil
  case «alias» v n =>
    rw [Expr_check_alias] at h
    obtain ⟨_, h1, h⟩ := bind_ok h
    rw [Expr_obj_alias]; kids; exact gs_cons (g_expr h1) gs_nil
  case star tn t => rw [Expr_obj_star]; kids; exact gs_nil
  case starOf b t =>
    rw [Expr_check_starOf] at h
    obtain ⟨_, h1, h⟩ := bind_ok h
    rw [Expr_obj_starOf]; kids; exact gs_cons (g_expr h1) gs_nil
  case aliasedStar s as =>
    rw [Expr_check_aliasedStar] at h
    rw [Expr_obj_aliasedStar]; kids; exact gs_cons (g_expr h) gs_nil
  case var n => exact gs_nil
  case lam ins b =>
    rw [Expr_check_lam] at h
    obtain ⟨_, h1, h⟩ := bind_ok h
    rw [Expr_obj_lam]; kids
    exact gs_app (gs_map fun n _ => ⟨.expr (.var n), ⟨_, rfl⟩, rfl⟩) (gs_cons (g_expr h1) gs_nil)
  case un op v =>
    rw [Expr_check_un] at h
    rw [Expr_obj_un]; kids; exact gs_cons (g_expr h) gs_nil
  case bin op l r =>
    rw [Expr_check_bin] at h
    obtain ⟨_, h1, h⟩ := bind_ok h
    obtain ⟨_, h2, h⟩ := bind_ok h
    rw [Expr_obj_bin]; kids; exact gs_cons (g_expr h1) (gs_cons (g_expr h2) gs_nil)
  case not v =>
    rw [Expr_check_not] at h
    obtain ⟨_, h1, h⟩ := bind_ok h
    rw [Expr_obj_not]; kids; exact gs_cons (g_expr h1) gs_nil
  case isNull v =>
    rw [Expr_check_isNull] at h
    obtain ⟨_, h1, h⟩ := bind_ok h
    rw [Expr_obj_isNull]; kids; exact gs_cons (g_expr h1) gs_nil
  case between v l u =>
    rw [Expr_check_between] at h
    obtain ⟨_, h1, h⟩ := bind_ok h
    obtain ⟨_, h2, h⟩ := bind_ok h
    obtain ⟨_, h3, h⟩ := bind_ok h
    rw [Expr_obj_between]; kids; exact gs_cons (g_expr h1) (gs_cons (g_expr h2) (gs_cons (g_expr h3) gs_nil))
  case array vs =>
    rw [Expr_check_array] at h
    obtain ⟨_, h1, h⟩ := bind_ok h
    rw [Expr_obj_array]; kids; exact gs_objs _ _ h1
  case inQuery v q =>
    rw [Expr_check_inQuery] at h
    obtain ⟨_, h1, h⟩ := bind_ok h
    obtain ⟨_, h2, h⟩ := bind_ok h
    rw [Expr_obj_inQuery]; kids; exact gs_cons (g_expr h1) (gs_cons (g_query h2) gs_nil)
  case inList v es =>
    rw [Expr_check_inList] at h
    obtain ⟨_, h1, h⟩ := bind_ok h
    obtain ⟨_, h2, h⟩ := bind_ok h
    rw [Expr_obj_inList]; kids; exact gs_cons (g_expr h1) (gs_objs _ _ h2)
  case like v p e =>
    rw [Expr_check_like] at h
    obtain ⟨_, h1, h⟩ := bind_ok h
    obtain ⟨_, h2, h⟩ := bind_ok h
    obtain ⟨_, h3, h⟩ := bind_ok h
    rw [Expr_obj_like]; kids; exact gs_cons (g_expr h1) (gs_cons (g_expr h2) (gs_opt _ _ h3))
  case typeCtor v t => rw [Expr_obj_typeCtor]; kids; exact gs_nil
  case row vs =>
    rw [Expr_check_row] at h
    obtain ⟨_, h1, h⟩ := bind_ok h
    rw [Expr_obj_row]; kids; exact gs_objs _ _ h1
  case interval v f t => rw [Expr_obj_interval]; kids; exact gs_nil
  case cast tr e t =>
    rw [Expr_check_cast] at h
    obtain ⟨_, h1, h⟩ := bind_ok h
    rw [Expr_obj_cast]; kids; exact gs_cons (g_expr h1) gs_nil
  case subscript v i =>
    rw [Expr_check_subscript] at h
    obtain ⟨_, h1, h⟩ := bind_ok h
    obtain ⟨_, h2, h⟩ := bind_ok h
    rw [Expr_obj_subscript]; kids; exact gs_cons (g_expr h1) (gs_cons (g_expr h2) gs_nil)
  case case v bs e =>
    rw [Expr_check_case] at h
    obtain ⟨_, h1, h⟩ := bind_ok h
    obtain ⟨_, h2, h⟩ := bind_ok h
    obtain ⟨_, h3, h⟩ := bind_ok h
    rw [Expr_obj_case]; kids; exact gs_app (gs_whens _ _ h2) (gs_app (gs_else _ _ h3) (gs_opt _ _ h1))
  case func f as =>
    rw [Expr_check_func] at h
    obtain ⟨_, h1, h⟩ := bind_ok h
    intro k hk
    exact gs_objs _ _ h1 k ((fn_children f as).mem_iff.mp hk)
  case agg f as ob fl w ign =>
    rw [Expr_check_agg] at h
    obtain ⟨_, h1, h⟩ := bind_ok h
    obtain ⟨_, h2, h⟩ := bind_ok h
    obtain ⟨_, h3, h⟩ := bind_ok h
    obtain ⟨_, h4, h⟩ := bind_ok h
    rw [agg_children]
    exact gs_app (gs_ords _ _ h2) (gs_app (gs_opt _ _ h3) (gs_app (gs_winOpt _ _ h4) (gs_objs _ _ h1)))
  case listagg v sep ov ob =>
    rw [Expr_check_listagg] at h
    obtain ⟨_, h1, h⟩ := bind_ok h
    obtain ⟨_, h2, h⟩ := bind_ok h
    rw [listagg_children]
    exact gs_app (gs_ords _ _ h2) (gs_cons (g_expr h1) (gs_filler _))
  case curTime f p => rw [Expr_obj_curTime]; kids; exact gs_nil
  case session f => rw [Expr_obj_session]; kids; exact gs_nil
  case normalize v fo =>
    rw [Expr_check_normalize] at h
    obtain ⟨_, h1, h⟩ := bind_ok h
    rw [Expr_obj_normalize]; kids; exact gs_cons (g_expr h1) gs_nil

theorem gs_rel (r : Rel) (u) (h : r.check = .ok u) : Fines (children r.obj) := by
  cases r
  case query q =>
    rw [Rel_check_query] at h
    obtain ⟨t, h1, _⟩ := bind_ok h
    exact gs_query q t h1
  case table t => rw [Rel_obj_table, table_children]; exact gs_nil
  case aliased n =>
    obtain ⟨r, a, cols⟩ := n
    rw [Rel_obj_aliased, Named_obj_mk]; kids
    exact gs_cons (g_rel h) gs_nil
  case join l r t nat cr =>
    rw [Rel_check_join] at h
    obtain ⟨_, h1, h⟩ := bind_ok h
    obtain ⟨_, h2, h⟩ := bind_ok h
    obtain ⟨_, h3, h⟩ := bind_ok h
    rw [Rel_obj_join]; kids
    refine gs_cons (g_rel h1) (gs_cons (g_rel h2) (gs_cons ⟨.config t nat cr, ⟨h3, ?_⟩, rfl⟩ gs_nil))
    split at h
    · assumption
    · exact nomatch h
  case unnest as o =>
    rw [Rel_check_unnest] at h
    obtain ⟨_, h1, h⟩ := bind_ok h
    rw [Rel_obj_unnest]; kids; exact gs_objs _ _ h1
  case lateral q =>
    rw [Rel_check_lateral] at h
    obtain ⟨_, h1, h⟩ := bind_ok h
    rw [Rel_obj_lateral]; kids; exact gs_cons (g_query h1) gs_nil
  case sample r t p =>
    rw [Rel_check_sample] at h
    obtain ⟨_, h1, h⟩ := bind_ok h
    obtain ⟨_, h2, h⟩ := bind_ok h
    rw [Rel_obj_sample]; kids; exact gs_cons (g_rel h1) (gs_cons (g_expr h2) gs_nil)

theorem gs_node (n : Node) (h : n.Accepted) : Fines (children n.obj) := by
  cases n with
  | expr e => obtain ⟨t, h⟩ := h; exact gs_expr e t h
  | query q => obtain ⟨t, h⟩ := h; exact gs_query q t h
  | rel r => exact gs_rel r () h
  | ord o =>
    obtain ⟨v, d, nf⟩ := o
    obtain ⟨t, h⟩ := h
    dsimp only [Node.obj]; rw [Ord_obj_mk]; kids; exact gs_cons (g_expr h) gs_nil
  | bound b =>
    cases b with
    | bounded t e =>
      dsimp only [Node.Accepted] at h
      rw [Bound_check_bounded] at h
      obtain ⟨_, h1, h⟩ := bind_ok h
      dsimp only [Node.obj]; rw [Bound_obj_bounded]; kids; exact gs_cons (g_expr h1) gs_nil
    | unbounded t => dsimp only [Node.obj]; rw [Bound_obj_unbounded]; kids; exact gs_nil
    | current => exact gs_nil
  | win w =>
    obtain ⟨p, ob, ps, f, st, en⟩ := w
    dsimp only [Node.Accepted] at h
    rw [Win_check_mk] at h
    obtain ⟨_, h1, h⟩ := bind_ok h
    obtain ⟨_, h2, h⟩ := bind_ok h
    obtain ⟨_, h3, h⟩ := bind_ok h
    dsimp only [Node.obj]; rw [Win_obj_mk]; kids
    exact gs_app (gs_ords _ _ h1) (gs_app (gs_objs _ _ h2) (gs_cons (g_bound h3) (gs_cons (g_bound h) gs_nil)))
  | grp g =>
    dsimp only [Node.Accepted] at h
    cases g with
    | set vs =>
      rw [Grp_check_set] at h
      obtain ⟨_, h1, h⟩ := bind_ok h
      dsimp only [Node.obj]; rw [Grp_obj_set]; kids; exact gs_objs _ _ h1
    | sets gs =>
      rw [Grp_check_sets] at h
      obtain ⟨_, h1, h⟩ := bind_ok h
      dsimp only [Node.obj]; rw [Grp_obj_sets]; kids; exact gs_sets _ _ h1
    | cube vs =>
      rw [Grp_check_cube] at h
      obtain ⟨_, h1, h⟩ := bind_ok h
      dsimp only [Node.obj]; rw [Grp_obj_cube]; kids; exact gs_objs _ _ h1
    | rollup vs =>
      rw [Grp_check_rollup] at h
      obtain ⟨_, h1, h⟩ := bind_ok h
      dsimp only [Node.obj]; rw [Grp_obj_rollup]; kids; exact gs_objs _ _ h1
  | groupBy g =>
    obtain ⟨gs, d⟩ := g
    dsimp only [Node.obj]; rw [GroupBy_obj_mk]; kids; exact gs_grps _ _ h
  | crit c =>
    dsimp only [Node.Accepted] at h
    cases c with
    | «using» cols => dsimp only [Node.obj]; rw [Crit_obj_using]; kids; exact gs_nil
    | on e =>
      rw [Crit_check_on] at h
      obtain ⟨_, h1, h⟩ := bind_ok h
      dsimp only [Node.obj]; rw [Crit_obj_on]; kids; exact gs_cons (g_expr h1) gs_nil
  | table t => rw [show (Node.table t).obj = t.obj from rfl, table_children]; exact gs_nil
  | type t => rw [show (Node.type t).obj = t.obj from rfl, type_children]; exact gs_nil
  | when c v =>
    obtain ⟨⟨_, h1⟩, _, h2⟩ := h
    dsimp only [Node.obj]; kids; exact gs_cons (g_expr h1) (gs_cons (g_expr h2) gs_nil)
  | else_ e =>
    obtain ⟨_, h1⟩ := h
    dsimp only [Node.obj]; kids; exact gs_cons (g_expr h1) gs_nil
  | config t nat cr => dsimp only [Node.obj]; kids; exact gs_critOpt _ _ h.1
  | filler f c => exact gs_nil

end Treeno
