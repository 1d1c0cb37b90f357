import Verif.Lemmas.Visit
import Verif.Lemmas.TypeText
/-! `visit` hands out the children, and the children are nodes that their constructors accepted. -/
namespace Treeno
open Spec

/-- The constructors of the node and of everything below it accept their arguments. -/
def Node.Accepted : Node → Prop
  | .expr e => ∃ t, e.check = .ok t
  | .query q => ∃ t, q.check = .ok t
  | .rel r => r.check = .ok ()
  | .ord (.mk v _ _) => ∃ t, v.check = .ok t
  | .bound b => b.check = .ok ()
  | .win w => w.check = .ok ()
  | .grp g => g.check = .ok ()
  | .groupBy g => g.check = .ok ()
  | .crit c => c.check = .ok ()
  | .table t => t.check = .ok ()
  | .type _ => True
  | .when c v => (∃ t, c.check = .ok t) ∧ ∃ t, v.check = .ok t
  | .else_ e => ∃ t, e.check = .ok t
  | .config t nat cr => Crit.checkOpt cr = .ok () ∧ joinConfigOk t nat cr.isSome = true
  | .filler _ _ => True

/-! ## What is handed out -/

/-- The node hands every child to the visitor exactly once, and nothing else. -/
def Handed (o : Obj) : Prop := ∃ l, o.visit = .ok l ∧ l.Perm (children o)

/-- The node hands every child to the visitor exactly once except the ones in `m`; it may hand over something that is
not a node. -/
def Hands (o : Obj) (m : List Obj) : Prop := ∃ l, o.visit = .ok l ∧ (l.filter isNode ++ m).Perm (children o)

theorem handed {o : Obj} {l} (h : o.visit = .ok l) (hp : l = children o) : Handed o := ⟨l, h, hp ▸ .refl _⟩
theorem handed' {o : Obj} {l} (h : o.visit = .ok l) (hp : l.Perm (children o)) : Handed o := ⟨l, h, hp⟩

theorem checks_len : ∀ (es : List Expr) (ts : List Ty), Expr.checks es = .ok ts → ts.length = es.length
  | [], ts, h => by
    rw [Expr_checks_nil] at h
    cases h; rfl
  | e :: es, ts, h => by
    rw [Expr_checks_cons] at h
    obtain ⟨t, _, h⟩ := bind_ok h
    obtain ⟨us, hu, h⟩ := bind_ok h
    cases h
    show us.length + 1 = es.length + 1
    rw [checks_len es us hu]

theorem fn_arity {f : Fn} {ts : List Ty} {t} (h : fnType f ts = .ok t) : arityOk f.arity ts.length = true := by
  unfold fnType at h
  split at h
  · assumption
  · exact nomatch h
theorem agg_arity {f : Agg} {ts : List Ty} {t} (h : aggType f ts = .ok t) : arityOk f.arity ts.length = true := by
  unfold aggType at h
  split at h
  · assumption
  · exact nomatch h

set_option maxHeartbeats 4000000 in
theorem handed_fn (f : Fn) (as : List Expr) (ha : arityOk f.arity as.length = true) : Handed (Expr.func f as).obj := by
  rw [Expr_obj_func]
  by_cases hc : f = .concat ∨ f = .coalesce
  · rcases hc with rfl | rfl
    · exact handed rfl (by dsimp only [fnAttrs]; kids)
    · exact handed rfl (by dsimp only [fnAttrs]; kids)
  · rcases as with _ | ⟨a, _ | ⟨b, _ | ⟨c, _ | ⟨d, r⟩⟩⟩⟩
    all_goals cases f
    all_goals first
      | exact Bool.noConfusion (show false = true from ha)
      | exact absurd (.inl rfl) hc
      | exact absurd (.inr rfl) hc
      | exact handed rfl (by dsimp only [fnAttrs, Fn.attrNames, argAttrs, Expr_objs_cons, Expr_objs_nil]; kids)

/-- An aggregate function hands out its arguments. -/
theorem agg_visit (f : Agg) (as : List Expr) (ob fl w ign) (ha : arityOk f.arity as.length = true) (hq : f ≠ .qdigestAgg) :
    ∃ l, (Expr.agg f as ob fl w ign).obj.visit = .ok l ∧ l.Perm (Expr.objs as) := by
  rw [Expr_obj_agg]
  rcases as with _ | ⟨a, _ | ⟨b, _ | ⟨c, _ | ⟨d, r⟩⟩⟩⟩
  all_goals cases f
  all_goals first
    | exact Bool.noConfusion (show false = true from ha)
    | exact absurd rfl hq
    | exact ⟨_, rfl, by dsimp only [Expr_objs_cons, Expr_objs_nil]; kids; exact .refl _⟩
    | exact ⟨_, rfl, by dsimp only [Expr_objs_cons, Expr_objs_nil]; kids; exact .swap _ _ _⟩

theorem args_children (c : Cls) : ∀ (ns : List Str) (as : List Expr), children (.inst c (argAttrs ns (Expr.objs as))) = Expr.objs as
  | [], [] => rfl
  | [], a :: as => by
    show held (.list (Expr.objs (a :: as))) ++ [] = _
    rw [held_objs, List.append_nil]
  | n :: ns, [] => by
    have := args_children c ns []
    exact this
  | n :: ns, a :: as => by
    show held a.obj ++ children (.inst c (argAttrs ns (Expr.objs as))) = _
    rw [args_children c ns as, held_expr]; rfl

theorem agg_children (f : Agg) (as : List Expr) (ob fl w ign) :
    children (Expr.agg f as ob fl w ign).obj = Ord.objs ob ++ (optKid Expr.obj fl ++ (optKid Win.obj w ++ Expr.objs as)) := by
  rw [Expr_obj_agg]
  kids
  rw [args_children]

theorem listagg_visit (v sep ov ob) :
    (Expr.listagg v sep ov ob).obj.visit = .ok (v.obj :: optKid (fun fc => (Node.filler fc.1 fc.2).obj) ov) := by
  rw [Expr_obj_listagg]
  show Except.ok ([v.obj] ++ ((fillerObj ov).ifSet ++ [])) = _
  kids
theorem listagg_children (v sep ov ob) : children (Expr.listagg v sep ov ob).obj =
    Ord.objs ob ++ v.obj :: optKid (fun fc => (Node.filler fc.1 fc.2).obj) ov := by
  rw [Expr_obj_listagg]
  kids

/-- Query: what it has besides `with_` and `orderby`. -/
def QBody.kids : QBody → List Obj
  | .select items fr wh gb hv _ wins => Expr.objs items ++ (optKid Rel.obj fr ++ (optKid Expr.obj wh ++ (optKid GroupBy.obj gb ++
      (optKid Expr.obj hv ++ wins.map fun nw => nw.2.obj))))
  | .set _ l r _ => [l.obj, r.obj]
  | .table t => [t.obj]
  | .values es => Expr.objs es

theorem query_children (b off lim ob w) : children (Query.mk b off lim ob w).obj = Ord.objs ob ++ (Named.objs w ++ b.kids) := by
  rw [Query_obj_mk]
  cases b
  all_goals (dsimp only [QBody.cls, QBody.attrs]; kids; rfl)

theorem select_visit (items fr wh gb hv d wins off lim ob w) :
    (Query.mk (.select items fr wh gb hv d wins) off lim ob w).obj.visit = .ok (.list (Expr.objs items) ::
      (optKid Rel.obj fr ++ (optKid Expr.obj wh ++ (optKid GroupBy.obj gb ++ (optKid Expr.obj hv ++ wins.map fun nw => nw.2.obj))))) := by
  rw [Query_obj_mk]
  have e : (Obj.inst (QBody.cls (.select items fr wh gb hv d wins))
      (typeAttr (Query.check (.mk (.select items fr wh gb hv d wins) off lim ob w)) :: (c% "offset", .optInt off) :: (c% "limit", .optInt lim) ::
      (c% "orderby", .optList (Ord.objs ob)) :: (c% "with_", withObj (Named.objs w)) :: QBody.attrs (.select items fr wh gb hv d wins))).visit =
      (do
        let x ← (windowObj (Win.objNamed wins)).valuesIfSet
        .ok ([Obj.list (Expr.objs items)] ++ ((Rel.objOpt fr).ifSet ++ ((Expr.objOpt wh).ifSet ++ ((GroupBy.objOpt gb).ifSet ++
          ((Expr.objOpt hv).ifSet ++ (x ++ []))))))) := by
    cases wins with
    | nil => rfl
    | cons a r => cases a; rfl
  rw [e, values_windows]
  show Except.ok _ = _
  kids

theorem other_visit (b : QBody) (hb : ∀ items fr wh gb hv d wins, b ≠ .select items fr wh gb hv d wins) (off lim ob w) :
    (Query.mk b off lim ob w).obj.visit = .ok b.kids := by
  rw [Query_obj_mk]
  cases b
  case select => exact absurd rfl (hb _ _ _ _ _ _ _)
  case values es =>
    show Except.ok (Expr.objs es ++ []) = _
    rw [List.append_nil]; rfl
  all_goals rfl

theorem empty_eq {l : List Obj} (h : l.isEmpty = true) : l = [] := List.isEmpty_iff.mp h
theorem and_b {a b : Bool} (h : (a && b) = true) : a = true ∧ b = true := by
  cases a <;> cases b <;> first | exact ⟨rfl, rfl⟩ | exact Bool.noConfusion (show false = true from h)

theorem handed_query (q : Query) (hc : covered q.obj = true) : Handed q.obj := by
  obtain ⟨b, off, lim, ob, w⟩ := q
  have h : (∀ items fr wh gb hv d wins, b ≠ .select items fr wh gb hv d wins) ∧ Ord.objs ob = [] ∧ Named.objs w = [] := by
    rw [Query_obj_mk] at hc
    cases b
    case select => exact Bool.noConfusion (show false = true from hc)
    all_goals
      refine ⟨nofun, ?_⟩
      have h : ((held (.optList (Ord.objs ob))).isEmpty && (held (withObj (Named.objs w))).isEmpty) = true := hc
      rw [held_ords, held_with] at h
      exact ⟨empty_eq (and_b h).1, empty_eq (and_b h).2⟩
  refine handed (other_visit b h.1 off lim ob w) ?_
  rw [query_children, h.2.1, h.2.2]; rfl

theorem handed_expr (e : Expr) (h : ∃ t, e.check = .ok t) (hc : covered e.obj = true) : Handed e.obj := by
  cases e
  case query q => exact handed_query q hc
  case lit v t => exact handed rfl (by rw [Expr_obj_lit]; kids)
  case field n tn t =>
    refine handed (l := (Obj.optStr tn).ifValue ++ []) rfl ?_
    rw [Expr_obj_field]; kids
  case fieldOf n b t =>
    refine handed (l := b.obj.ifValue ++ []) rfl ?_
    rw [Expr_obj_fieldOf]; kids
  case «alias» v n => exact handed rfl (by rw [Expr_obj_alias]; kids)
  case star tn t =>
    refine handed (l := (Obj.optStr tn).ifValue ++ []) rfl ?_
    rw [Expr_obj_star]; kids
  case starOf b t =>
    refine handed (l := b.obj.ifValue ++ []) rfl ?_
    rw [Expr_obj_starOf]; kids
  case aliasedStar s as => exact handed rfl (by rw [Expr_obj_aliasedStar]; kids)
  case var n => exact handed rfl rfl
  case lam ins b => exact handed rfl (by rw [Expr_obj_lam]; kids)
  case un op v => exact handed rfl (by rw [Expr_obj_un]; kids)
  case bin op l r => exact handed rfl (by rw [Expr_obj_bin]; kids)
  case not v => exact handed rfl (by rw [Expr_obj_not]; kids)
  case isNull v => exact handed rfl (by rw [Expr_obj_isNull]; kids)
  case between v l u => exact handed rfl (by rw [Expr_obj_between]; kids)
  case array vs => exact handed rfl (by rw [Expr_obj_array]; kids)
  case inQuery v q => exact handed rfl (by rw [Expr_obj_inQuery]; kids)
  case inList v es => exact handed rfl (by rw [Expr_obj_inList]; kids)
  case like v p e => exact handed rfl (by rw [Expr_obj_like]; kids)
  case typeCtor v t => exact handed rfl (by rw [Expr_obj_typeCtor]; kids)
  case row vs => exact handed rfl (by rw [Expr_obj_row]; kids)
  case interval v f t => exact handed rfl (by rw [Expr_obj_interval]; kids)
  case cast tr e t => exact handed rfl (by rw [Expr_obj_cast]; kids)
  case subscript v i => exact handed rfl (by rw [Expr_obj_subscript]; kids)
  case case v bs e => exact handed rfl (by rw [Expr_obj_case]; kids)
  case func f as =>
    obtain ⟨t, h⟩ := h
    rw [Expr_check_func] at h
    obtain ⟨ts, hs, h⟩ := bind_ok h
    exact handed_fn f as (checks_len as ts hs ▸ fn_arity h)
  case agg f as ob fl w ign =>
    obtain ⟨t, h⟩ := h
    rw [Expr_check_agg] at h
    obtain ⟨ts, hs, h⟩ := bind_ok h
    obtain ⟨_, _, h⟩ := bind_ok h
    obtain ⟨_, _, h⟩ := bind_ok h
    obtain ⟨_, _, h⟩ := bind_ok h
    have ha : arityOk f.arity as.length = true := by
      split at h
      · exact nomatch h
      · exact checks_len as ts hs ▸ agg_arity h
    have hq : f ≠ .qdigestAgg := by
      rintro rfl
      exact Bool.noConfusion (show false = true from hc)
    obtain ⟨l, hv, hl⟩ := agg_visit f as ob fl w ign ha hq
    have hn : Ord.objs ob = [] ∧ optKid Expr.obj fl = [] ∧ optKid Win.obj w = [] := by
      have h : ((held (.optList (Ord.objs ob))).isEmpty && (held (Expr.objOpt fl)).isEmpty && (held (Win.objOpt w)).isEmpty) = true := by
        rw [Expr_obj_agg] at hc
        cases f
        case qdigestAgg => exact absurd rfl hq
        all_goals exact hc
      rw [held_ords, held_opt, held_winOpt] at h
      exact ⟨empty_eq (and_b (and_b h).1).1, empty_eq (and_b (and_b h).1).2, empty_eq (and_b h).2⟩
    refine handed' hv ?_
    rw [agg_children, hn.1, hn.2.1, hn.2.2]
    exact hl
  case listagg v sep ov ob => exact Bool.noConfusion (show false = true from hc)
  case curTime f p => exact handed rfl (by rw [Expr_obj_curTime]; kids)
  case session f => exact handed rfl (by rw [Expr_obj_session]; kids)
  case normalize v fo => exact handed rfl (by rw [Expr_obj_normalize]; kids)

theorem table_children (t : TableRef) : children t.obj = [] := by
  unfold TableRef.obj; kids; rfl
theorem not_node_type (t : Ty) : isNode t.obj = false := by cases t <;> rfl
theorem filter_types : ∀ l : List Ty, (l.map Ty.obj).filter isNode = []
  | [] => rfl
  | t :: r => by
    rw [List.map_cons, List.filter_cons_of_neg (by rw [not_node_type]; exact nofun), filter_types r]
theorem type_children (t : Ty) : children t.obj = [] := by
  cases t with
  | varchar n => cases n <;> rfl
  | time p tz => cases p <;> rfl
  | timestamp p tz => cases p <;> rfl
  | array t => exact (List.append_nil _).trans (filter_types [t])
  | qdigest t => exact (List.append_nil _).trans (filter_types [t])
  | map a b => exact (List.append_nil _).trans (filter_types [a, b])
  | _ => rfl
theorem type_visit (t : Ty) : t.obj.visit = .ok [] := by cases t <;> rfl

theorem handed_rel (r : Rel) (hc : covered r.obj = true) : Handed r.obj := by
  cases r
  case query q => exact handed_query q hc
  case table t => exact handed rfl (by rw [Rel_obj_table, table_children])
  case aliased n => cases n; exact handed rfl (by rw [Rel_obj_aliased, Named_obj_mk]; kids)
  case join l r t nat cr => exact handed rfl (by rw [Rel_obj_join]; kids)
  case unnest as o => exact handed rfl (by rw [Rel_obj_unnest]; kids)
  case lateral q => exact handed rfl (by rw [Rel_obj_lateral]; kids)
  case sample r t p => exact handed rfl (by rw [Rel_obj_sample]; kids)

theorem handed_win (w : Win) : Handed w.obj := by
  obtain ⟨p, ob, ps, f, st, en⟩ := w
  rw [Win_obj_mk]
  refine handed (l := Ord.objs ob ++ (Expr.objs ps ++ (st.obj.ifSet ++ (en.obj.ifSet ++ [])))) ?_ (by kids)
  cases ob <;> cases ps <;> rfl

theorem handed_node (n : Node) (ha : n.Accepted) (hc : covered n.obj = true) : Handed n.obj := by
  cases n with
  | expr e => exact handed_expr e ha hc
  | query q => exact handed_query q hc
  | rel r => exact handed_rel r hc
  | ord o => cases o; exact handed rfl (by dsimp only [Node.obj]; rw [Ord_obj_mk]; kids)
  | bound b =>
    cases b
    · exact handed rfl (by dsimp only [Node.obj]; rw [Bound_obj_bounded]; kids)
    · exact handed rfl (by dsimp only [Node.obj]; rw [Bound_obj_unbounded]; kids)
    · exact handed rfl rfl
  | win w => exact handed_win w
  | grp g =>
    cases g
    · exact handed rfl (by dsimp only [Node.obj]; rw [Grp_obj_set]; kids)
    · exact handed rfl (by dsimp only [Node.obj]; rw [Grp_obj_sets]; kids)
    · exact handed rfl (by dsimp only [Node.obj]; rw [Grp_obj_cube]; kids)
    · exact handed rfl (by dsimp only [Node.obj]; rw [Grp_obj_rollup]; kids)
  | groupBy g => cases g; exact handed rfl (by dsimp only [Node.obj]; rw [GroupBy_obj_mk]; kids)
  | crit c =>
    cases c
    · exact handed rfl (by dsimp only [Node.obj]; rw [Crit_obj_using]; kids)
    · exact handed rfl (by dsimp only [Node.obj]; rw [Crit_obj_on]; kids)
  | table t => exact handed rfl (table_children t).symm
  | type t => exact handed (type_visit t) (type_children t).symm
  | when c v => exact handed rfl (by dsimp only [Node.obj]; kids)
  | else_ e => exact handed rfl (by dsimp only [Node.obj]; kids)
  | config t nat cr =>
    cases cr with
    | none => exact Bool.noConfusion (show false = true from hc)
    | some c =>
      refine handed (l := [c.obj]) rfl ?_
      dsimp only [Node.obj]; kids; rfl
  | filler f c => exact handed rfl rfl

end Treeno
