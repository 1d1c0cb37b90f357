import Verif.Lemmas.ObjEqs
/-! # Different trees are different objects -/
namespace Treeno

def clsOf : Obj → Cls
  | .inst c _ => c
  | _ => .literal
def attrsOf : Obj → List (Str × Obj)
  | .inst _ as => as
  | _ => []
def attrL (n : Nat) (as : List (Str × Obj)) : Obj := match as.drop n with
  | (_, o) :: _ => o
  | [] => .none
def attrN (n : Nat) (o : Obj) : Obj := attrL n (attrsOf o)

theorem str_inj {a b : Str} (h : Obj.str a = Obj.str b) : a = b := Scalar.str.inj (Obj.scalar.inj h)
theorem int_inj {a b : Int} (h : Obj.int a = Obj.int b) : a = b := Scalar.int.inj (Obj.scalar.inj h)
theorem bool_inj {a b : Bool} (h : Obj.bool a = Obj.bool b) : a = b := Scalar.bool.inj (Obj.scalar.inj h)
theorem optStr_inj {a b : Option Str} (h : Obj.optStr a = Obj.optStr b) : a = b := by
  cases a <;> cases b
  · rfl
  · exact nomatch h
  · exact nomatch h
  · rw [str_inj h]
theorem optInt_inj {a b : Option Int} (h : Obj.optInt a = Obj.optInt b) : a = b := by
  cases a <;> cases b
  · rfl
  · exact nomatch h
  · exact nomatch h
  · rw [int_inj h]
theorem optScalar_inj {a b : Option Scalar} (h : Obj.optScalar a = Obj.optScalar b) : a = b := by
  cases a <;> cases b
  · rfl
  · exact nomatch h
  · exact nomatch h
  · rw [Obj.scalar.inj h]
theorem optList_inj {a b : List Obj} (h : Obj.optList a = Obj.optList b) : a = b := by
  cases a <;> cases b
  · rfl
  · exact nomatch h
  · exact nomatch h
  · exact Obj.list.inj h
theorem withObj_inj {a b : List Obj} (h : withObj a = withObj b) : a = b := by
  cases a <;> cases b
  · rfl
  · exact nomatch h
  · exact nomatch h
  · exact Obj.list.inj h
theorem windowObj_inj {a b : List (Str × Obj)} (h : windowObj a = windowObj b) : a = b := by
  cases a <;> cases b
  · rfl
  · exact nomatch h
  · exact nomatch h
  · exact Obj.dict.inj h
theorem map_inj {α} {f : α → Obj} (hf : ∀ a b, f a = f b → a = b) : ∀ {l l' : List α}, l.map f = l'.map f → l = l'
  | [], [], _ => rfl
  | [], _ :: _, h => nomatch h
  | _ :: _, [], h => nomatch h
  | a :: r, b :: r', h => by
    rw [hf a b (List.cons.inj h).1, map_inj hf (List.cons.inj h).2]
theorem strs_inj {a b : List Str} (h : Obj.list (a.map .str) = Obj.list (b.map .str)) : a = b :=
  map_inj (fun _ _ => str_inj) (Obj.list.inj h)
theorem names_inj {a b : List Str} (h : Obj.names a = Obj.names b) : a = b :=
  map_inj (fun _ _ => str_inj) (optList_inj h)
theorem vars_inj {a b : List Str} (h : Obj.list (a.map varObj) = Obj.list (b.map varObj)) : a = b :=
  map_inj (f := varObj) (fun _ _ h => str_inj (congrArg (attrN 1) h)) (Obj.list.inj h)
theorem enum2_inj {c y n : Str} {a b : Bool} (hy : y ≠ n) (h : Obj.enum2 c y n a = Obj.enum2 c y n b) : a = b := by
  have := (Obj.enum.inj h).2
  cases a <;> cases b
  · rfl
  · exact absurd this.symm hy
  · exact absurd this hy
  · rfl
theorem filler_inj {a b : Option (Str × Bool)} (h : fillerObj a = fillerObj b) : a = b := by
  cases a with
  | none => cases b with
    | none => rfl
    | some b => exact nomatch h
  | some a => cases b with
    | none => exact nomatch h
    | some b =>
      obtain ⟨a1, a2⟩ := a
      obtain ⟨b1, b2⟩ := b
      have h1 : a2 = b2 := enum2_inj (by decide) (congrArg (attrN 0) h)
      have h2 : a1 = b1 := str_inj (congrArg (attrN 1) h)
      rw [h1, h2]
theorem JoinType_inj {a b : JoinType} (h : a.obj = b.obj) : a = b := by
  cases a <;> cases b <;> first | rfl | exact absurd (Obj.enum.inj h).2 (by decide)
theorem SampleType_inj {a b : SampleType} (h : a.obj = b.obj) : a = b := by
  cases a <;> cases b <;> first | rfl | exact absurd (Obj.enum.inj h).2 (by decide)
theorem FrameType_inj {a b : FrameType} (h : a.obj = b.obj) : a = b := by
  cases a <;> cases b <;> first | rfl | exact absurd (Obj.enum.inj h).2 (by decide)
theorem BoundType_inj {a b : BoundType} (h : a.obj = b.obj) : a = b := by
  cases a <;> cases b <;> first | rfl | exact absurd (Obj.enum.inj h).2 (by decide)
theorem NormalForm_inj {a b : NormalForm} (h : a.obj = b.obj) : a = b := by
  cases a <;> cases b <;> first | rfl | exact absurd (Obj.enum.inj h).2 (by decide)
theorem optForm_inj {a b : Option NormalForm} (h : Obj.optForm a = Obj.optForm b) : a = b := by
  cases a with
  | none => cases b with
    | none => rfl
    | some b => cases b <;> exact nomatch h
  | some a => cases b with
    | none => cases a <;> exact nomatch h
    | some b => rw [NormalForm_inj h]

theorem tyName {a b : Str} {p q : List (Str × Obj)} (h : Obj.dataType a p = Obj.dataType b q) : a = b ∧ p = q :=
  ⟨str_inj (congrArg (attrN 0) h), Obj.dict.inj (congrArg (attrN 1) h)⟩
theorem optAttr_inj {k : Str} {a b : Option Int} (h : Obj.optAttr k a = Obj.optAttr k b) : a = b := by
  cases a <;> cases b
  · rfl
  · exact nomatch h
  · exact nomatch h
  · rw [int_inj (congrArg (attrL 0) h)]
theorem Ty_name : ∀ t : Ty, t.obj = Obj.dataType t.typeName (match attrN 1 t.obj with
    | .dict d => d
    | _ => [])
  | .simple _ | .decimal _ _ | .varchar _ | .char _ | .time _ _ | .timestamp _ _ | .interval _ | .array _ | .map _ _
  | .row _ | .qdigest _ => rfl
theorem Ty_names {a b : Ty} (h : a.obj = b.obj) : a.typeName = b.typeName := by
  rw [Ty_name a, Ty_name b] at h
  exact (tyName h).1
theorem Simple_name_inj {a b : Simple} (h : a.name = b.name) : a = b := by
  revert h; cases a <;> cases b <;> decide
theorem Simple_name_other {a : Simple} {n : Str} (h : a.name = n) (hn : n ∉ Simple.all.map Simple.name) : False := by
  subst h; revert hn; cases a <;> decide

mutual
theorem Ty_inj : ∀ a b : Ty, a.obj = b.obj → a = b
  | .simple s, b, h => by
    have hn := Ty_names h
    cases b with
    | simple s' => rw [Simple_name_inj hn]
    | _ => exact (Simple_name_other hn (by dsimp only [Ty.typeName]; decide)).elim
  | .decimal p s, b, h => by
    have hn := Ty_names h
    cases b with
    | decimal p' s' =>
      have h2 := (tyName h).2
      rw [int_inj (congrArg (attrL 0) h2), int_inj (congrArg (attrL 1) h2)]
    | simple s' => exact (Simple_name_other hn.symm (by dsimp only [Ty.typeName]; decide)).elim
    | _ => exact absurd hn (by dsimp only [Ty.typeName]; decide)
  | .varchar n, b, h => by
    have hn := Ty_names h
    cases b with
    | varchar n' => rw [optAttr_inj (tyName h).2]
    | simple s' => exact (Simple_name_other hn.symm (by dsimp only [Ty.typeName]; decide)).elim
    | _ => exact absurd hn (by dsimp only [Ty.typeName]; decide)
  | .char n, b, h => by
    have hn := Ty_names h
    cases b with
    | char n' => rw [int_inj (congrArg (attrL 0) (tyName h).2)]
    | simple s' => exact (Simple_name_other hn.symm (by dsimp only [Ty.typeName]; decide)).elim
    | _ => exact absurd hn (by dsimp only [Ty.typeName]; decide)
  | .time p tz, b, h => by
    have hn := Ty_names h
    cases b with
    | time p' tz' =>
      have h2 := (tyName h).2
      rw [bool_inj (congrArg (attrL 0) h2), optAttr_inj (List.cons.inj h2).2]
    | simple s' => exact (Simple_name_other hn.symm (by dsimp only [Ty.typeName]; decide)).elim
    | _ => exact absurd hn (by dsimp only [Ty.typeName]; decide)
  | .timestamp p tz, b, h => by
    have hn := Ty_names h
    cases b with
    | timestamp p' tz' =>
      have h2 := (tyName h).2
      rw [bool_inj (congrArg (attrL 0) h2), optAttr_inj (List.cons.inj h2).2]
    | simple s' => exact (Simple_name_other hn.symm (by dsimp only [Ty.typeName]; decide)).elim
    | _ => exact absurd hn (by dsimp only [Ty.typeName]; decide)
  | .interval k, b, h => by
    have hn := Ty_names h
    cases b with
    | interval k' =>
      have h2 := str_inj (congrArg (attrL 0) (tyName h).2)
      cases k <;> cases k' <;> first | rfl | exact absurd h2 (by decide)
    | simple s' => exact (Simple_name_other hn.symm (by dsimp only [Ty.typeName]; decide)).elim
    | _ => exact absurd hn (by dsimp only [Ty.typeName]; decide)
  | .array t, b, h => by
    have hn := Ty_names h
    cases b with
    | array t' => rw [Ty_inj t t' (congrArg (attrL 0) (tyName h).2)]
    | simple s' => exact (Simple_name_other hn.symm (by dsimp only [Ty.typeName]; decide)).elim
    | _ => exact absurd hn (by dsimp only [Ty.typeName]; decide)
  | .map f t, b, h => by
    have hn := Ty_names h
    cases b with
    | map f' t' => rw [Ty_inj f f' (congrArg (attrL 0) (tyName h).2), Ty_inj t t' (congrArg (attrL 1) (tyName h).2)]
    | simple s' => exact (Simple_name_other hn.symm (by dsimp only [Ty.typeName]; decide)).elim
    | _ => exact absurd hn (by dsimp only [Ty.typeName]; decide)
  | .row l, b, h => by
    have hn := Ty_names h
    cases b with
    | row l' => rw [Tys_inj l l' (Obj.list.inj (congrArg (attrL 0) (tyName h).2))]
    | simple s' => exact (Simple_name_other hn.symm (by dsimp only [Ty.typeName]; decide)).elim
    | _ => exact absurd hn (by dsimp only [Ty.typeName]; decide)
  | .qdigest t, b, h => by
    have hn := Ty_names h
    cases b with
    | qdigest t' => rw [Ty_inj t t' (congrArg (attrL 0) (tyName h).2)]
    | simple s' => exact (Simple_name_other hn.symm (by dsimp only [Ty.typeName]; decide)).elim
    | _ => exact absurd hn (by dsimp only [Ty.typeName]; decide)
theorem Tys_inj : ∀ a b : List Ty, Ty.objs a = Ty.objs b → a = b
  | [], [], _ => rfl
  | [], _ :: _, h => nomatch h
  | _ :: _, [], h => nomatch h
  | a :: r, b :: r', h => by rw [Ty_inj a b (List.cons.inj h).1, Tys_inj r r' (List.cons.inj h).2]
end

theorem TableRef_inj {a b : TableRef} (h : a.obj = b.obj) : a = b := by
  obtain ⟨n, s, c, cols⟩ := a
  obtain ⟨n', s', c', cols'⟩ := b
  have h0 : n = n' := str_inj (congrArg (attrN 0) h)
  have h1 : s = s' := optStr_inj (congrArg (attrN 1) h)
  have h2 : c = c' := optStr_inj (congrArg (attrN 2) h)
  have h3 : cols = cols' := by
    refine map_inj (f := Col.obj) ?_ (Obj.list.inj (congrArg (fun o => attrN 0 (attrN 3 o)) h))
    rintro ⟨n, s, t⟩ ⟨n', s', t'⟩ h
    have h0 : n = n' := optStr_inj (congrArg (attrN 0) h)
    have h1 : s = s' := Obj.rel.inj (congrArg (attrN 1) h)
    have h2 : t = t' := Ty_inj _ _ (congrArg (attrN 2) h)
    rw [h0, h1, h2]
  rw [h0, h1, h2, h3]

/-! ## Functions -/

theorem none_mem {x : Obj} {r : List Obj} (h : Obj.none = x) : Obj.none ∈ x :: r := by subst h; exact List.mem_cons_self
theorem argAttrs_inj : ∀ (ns : List Str) (a b : List Obj), Obj.none ∉ a → Obj.none ∉ b → argAttrs ns a = argAttrs ns b → a = b
  | [], [], [], _, _, _ => rfl
  | [], [], _ :: _, _, _, h => nomatch h
  | [], _ :: _, [], _, _, h => nomatch h
  | [], x :: r, y :: r', _, _, h => Obj.list.inj (congrArg (attrL 0) h)
  | _ :: _, [], [], _, _, _ => rfl
  | _ :: _, [], y :: _, _, hb, h => absurd (none_mem (show Obj.none = y from congrArg (attrL 0) h)) hb
  | _ :: _, x :: _, [], ha, _, h => absurd (none_mem (show Obj.none = x from (congrArg (attrL 0) h).symm)) ha
  | _ :: ns, x :: r, y :: r', ha, hb, h => by
    have h0 : x = y := congrArg (attrL 0) h
    rw [h0, argAttrs_inj ns r r' (fun hm => ha (List.mem_cons_of_mem _ hm)) (fun hm => hb (List.mem_cons_of_mem _ hm)) (List.cons.inj h).2]

theorem fnAttrs_unix (a : List Obj) : (∃ v h m, a = [v, h, m]) ∨
    fnAttrs .fromUnixtime a = argAttrs [c% "value", c% "zone"] a ++ [(c% "hours", Obj.none), (c% "minutes", Obj.none)] := by
  match a with
  | [] | [_] | [_, _] | _ :: _ :: _ :: _ :: _ => exact .inr rfl
  | [v, h, m] => exact .inl ⟨v, h, m, rfl⟩

theorem unix_tail {v x m : Obj} {l : List (Str × Obj)}
    (h : fnAttrs .fromUnixtime [v, x, m] = l ++ [(c% "hours", Obj.none), (c% "minutes", Obj.none)]) : x = .none := by
  have h' := congrArg (fun l => (l.reverse.drop 1).head?) h
  simp [fnAttrs] at h'
  exact h'

theorem fnAttrs_inj {f : Fn} {a b : List Obj} (ha : Obj.none ∉ a) (hb : Obj.none ∉ b) (h : fnAttrs f a = fnAttrs f b) : a = b := by
  cases f
  case concat => exact Obj.list.inj (congrArg (attrL 0) h)
  case coalesce => exact Obj.list.inj (congrArg (attrL 0) h)
  case fromUnixtime =>
    rcases fnAttrs_unix a with ⟨v, x, m, rfl⟩ | ea <;> rcases fnAttrs_unix b with ⟨v', x', m', rfl⟩ | eb
    · have h0 : v = v' := congrArg (attrL 0) h
      have h2 : x = x' := congrArg (attrL 2) h
      have h3 : m = m' := congrArg (attrL 3) h
      rw [h0, h2, h3]
    · rw [eb] at h
      exact absurd (unix_tail h) (fun k => ha (k ▸ by simp))
    · rw [ea] at h
      exact absurd (unix_tail h.symm) (fun k => hb (k ▸ by simp))
    · rw [ea, eb] at h
      exact argAttrs_inj _ _ _ ha hb (List.append_cancel_right h)
  all_goals exact argAttrs_inj _ _ _ ha hb h

/-! ## Every node is an instance -/

def Query.body : Query → QBody
  | .mk b _ _ _ _ => b

theorem Query_inst : ∀ q : Query, ∃ as, q.obj = .inst q.body.cls as
  | .mk _ _ _ _ _ => ⟨_, rfl⟩

theorem Expr_inst (e : Expr) : ∃ c as, e.obj = .inst c as := by
  cases e
  case query q => obtain ⟨as, h⟩ := Query_inst q; exact ⟨_, as, h⟩
  all_goals exact ⟨_, _, rfl⟩
theorem Expr_not (e : Expr) : e.obj ≠ .none := by
  obtain ⟨c, as, h⟩ := Expr_inst e
  rw [h]; exact nofun
theorem Win_not (w : Win) : w.obj ≠ .none := by cases w; exact nofun
theorem GroupBy_not (g : GroupBy) : g.obj ≠ .none := by cases g; exact nofun
theorem Crit_not (c : Crit) : c.obj ≠ .none := by cases c <;> exact nofun
theorem Rel_not (r : Rel) : r.obj ≠ .none := by
  cases r
  case query q => obtain ⟨as, h⟩ := Query_inst q; rw [Rel_obj_query, h]; exact nofun
  case aliased n => cases n; exact nofun
  all_goals exact nofun
theorem objs_not : ∀ l : List Expr, Obj.none ∉ Expr.objs l
  | [], h => nomatch h
  | e :: r, h => by
    rcases List.mem_cons.mp h with h | h
    · exact Expr_not e h.symm
    · exact objs_not r h

/-- Which constructor an object comes from. -/
def isInst : Obj → Bool
  | .inst _ _ => true
  | _ => false
def kindE (o : Obj) : Nat := match clsOf o with
  | .literal => 0
  | .field => if isInst (attrN 2 o) then 2 else 1
  | .aliasedValue => 3
  | .star => if isInst (attrN 1 o) then 5 else 4
  | .aliasedStar => 6 | .variable => 7 | .lambda => 8 | .un _ => 9 | .bin _ => 10 | .not => 11 | .isNull => 12
  | .between => 13 | .array => 14 | .inQuery => 15 | .inList => 16 | .like => 17 | .typeConstructor => 18
  | .rowConstructor => 19 | .interval => 20 | .cast _ => 21 | .subscript => 22 | .case => 23 | .fn _ => 24 | .agg _ => 25
  | .listAgg => 26 | .curTime _ => 27 | .session _ => 28 | .normalize => 29
  | _ => 30
def idxE : Expr → Nat
  | .lit _ _ => 0 | .field _ _ _ => 1 | .fieldOf _ _ _ => 2 | .alias _ _ => 3 | .star _ _ => 4 | .starOf _ _ => 5
  | .aliasedStar _ _ => 6 | .var _ => 7 | .lam _ _ => 8 | .un _ _ => 9 | .bin _ _ _ => 10 | .not _ => 11 | .isNull _ => 12
  | .between _ _ _ => 13 | .array _ => 14 | .inQuery _ _ => 15 | .inList _ _ => 16 | .like _ _ _ => 17 | .typeCtor _ _ => 18
  | .row _ => 19 | .interval _ _ _ => 20 | .cast _ _ _ => 21 | .subscript _ _ => 22 | .case _ _ _ => 23 | .func _ _ => 24
  | .agg _ _ _ _ _ _ => 25 | .listagg _ _ _ _ => 26 | .curTime _ _ => 27 | .session _ => 28 | .normalize _ _ => 29 | .query _ => 30
theorem kindE_eq (e : Expr) : kindE e.obj = idxE e := by
  cases e
  case field n tn t => cases tn <;> rfl
  case star tn t => cases tn <;> rfl
  case fieldOf n b t =>
    obtain ⟨c, as, h⟩ := Expr_inst b
    rw [Expr_obj_fieldOf, h]; rfl
  case starOf b t =>
    obtain ⟨c, as, h⟩ := Expr_inst b
    rw [Expr_obj_starOf, h]; rfl
  case query q =>
    obtain ⟨as, h⟩ := Query_inst q
    rw [Expr_obj_query, h]
    obtain ⟨b, _, _, _, _⟩ := q
    cases b <;> rfl
  all_goals rfl
theorem idx_Expr {a b : Expr} (h : a.obj = b.obj) : idxE a = idxE b := by
  rw [← kindE_eq, ← kindE_eq, h]
def kindR (o : Obj) : Nat := match clsOf o with
  | .table => 0 | .aliasedRelation => 2 | .join => 3 | .unnest => 4 | .lateral => 5 | .tableSample => 6
  | _ => 1
def idxR : Rel → Nat
  | .table _ => 0 | .query _ => 1 | .aliased _ => 2 | .join _ _ _ _ _ => 3 | .unnest _ _ => 4 | .lateral _ => 5 | .sample _ _ _ => 6
theorem kindR_eq (e : Rel) : kindR e.obj = idxR e := by
  cases e
  case query q =>
    obtain ⟨as, h⟩ := Query_inst q
    rw [Rel_obj_query, h]
    obtain ⟨b, _, _, _, _⟩ := q
    cases b <;> rfl
  case aliased n => cases n; rfl
  all_goals rfl
theorem idx_Rel {a b : Rel} (h : a.obj = b.obj) : idxR a = idxR b := by
  rw [← kindR_eq, ← kindR_eq, h]
def kindS (o : Obj) : Nat := match clsOf o with
  | .boundedFrameBound | .groupingSet | .joinUsingCriteria => 0
  | .unboundedFrameBound | .groupingSetList | .joinOnCriteria => 1
  | .currentFrameBound | .cube => 2
  | _ => 3
def idxB : Bound → Nat
  | .bounded _ _ => 0 | .unbounded _ => 1 | .current => 2
def idxG : Grp → Nat
  | .set _ => 0 | .sets _ => 1 | .cube _ => 2 | .rollup _ => 3
def idxC : Crit → Nat
  | .using _ => 0 | .on _ => 1
theorem idx_Bound {a b : Bound} (h : a.obj = b.obj) : idxB a = idxB b := by
  have e : ∀ x : Bound, kindS x.obj = idxB x := fun x => by cases x <;> rfl
  rw [← e, ← e, h]
theorem idx_Grp {a b : Grp} (h : a.obj = b.obj) : idxG a = idxG b := by
  have e : ∀ x : Grp, kindS x.obj = idxG x := fun x => by cases x <;> rfl
  rw [← e, ← e, h]
theorem idx_Crit {a b : Crit} (h : a.obj = b.obj) : idxC a = idxC b := by
  have e : ∀ x : Crit, kindS x.obj = idxC x := fun x => by cases x <;> rfl
  rw [← e, ← e, h]

set_option maxHeartbeats 1600000 in
mutual
theorem inj_Expr : ∀ x y : Expr, x.obj = y.obj → x = y
  | .lit v t, y, h => by
    have hk := idx_Expr h
    cases y with
    | lit v' t' =>
      have h_v : v = v' := optScalar_inj (congrArg (attrN 1) h)
      have h_t : t = t' := Ty_inj _ _ (congrArg (attrN 0) h)
      subst h_v; subst h_t; rfl
    | _ => exact absurd hk (Nat.ne_of_beq_eq_false rfl)
  | .field n tn t, y, h => by
    have hk := idx_Expr h
    cases y with
    | field n' tn' t' =>
      have h_n : n = n' := str_inj (congrArg (attrN 1) h)
      have h_tn : tn = tn' := optStr_inj (congrArg (attrN 2) h)
      have h_t : t = t' := Ty_inj _ _ (congrArg (attrN 0) h)
      subst h_n; subst h_tn; subst h_t; rfl
    | _ => exact absurd hk (Nat.ne_of_beq_eq_false rfl)
  | .fieldOf n b t, y, h => by
    have hk := idx_Expr h
    cases y with
    | fieldOf n' b' t' =>
      have h_n : n = n' := str_inj (congrArg (attrN 1) h)
      have h_b : b = b' := inj_Expr b b' (congrArg (attrN 2) h)
      have h_t : t = t' := Ty_inj _ _ (congrArg (attrN 0) h)
      subst h_n; subst h_b; subst h_t; rfl
    | _ => exact absurd hk (Nat.ne_of_beq_eq_false rfl)
  | .alias v n, y, h => by
    have hk := idx_Expr h
    cases y with
    | «alias» v' n' =>
      have h_v : v = v' := inj_Expr v v' (congrArg (attrN 1) h)
      have h_n : n = n' := str_inj (congrArg (attrN 2) h)
      subst h_v; subst h_n; rfl
    | _ => exact absurd hk (Nat.ne_of_beq_eq_false rfl)
  | .star tn t, y, h => by
    have hk := idx_Expr h
    cases y with
    | star tn' t' =>
      have h_tn : tn = tn' := optStr_inj (congrArg (attrN 1) h)
      have h_t : t = t' := Ty_inj _ _ (congrArg (attrN 0) h)
      subst h_tn; subst h_t; rfl
    | _ => exact absurd hk (Nat.ne_of_beq_eq_false rfl)
  | .starOf b t, y, h => by
    have hk := idx_Expr h
    cases y with
    | starOf b' t' =>
      have h_b : b = b' := inj_Expr b b' (congrArg (attrN 1) h)
      have h_t : t = t' := Ty_inj _ _ (congrArg (attrN 0) h)
      subst h_b; subst h_t; rfl
    | _ => exact absurd hk (Nat.ne_of_beq_eq_false rfl)
  | .aliasedStar s as, y, h => by
    have hk := idx_Expr h
    cases y with
    | aliasedStar s' as' =>
      have h_s : s = s' := inj_Expr s s' (congrArg (attrN 1) h)
      have h_as : as = as' := strs_inj (congrArg (attrN 2) h)
      subst h_s; subst h_as; rfl
    | _ => exact absurd hk (Nat.ne_of_beq_eq_false rfl)
  | .var n, y, h => by
    have hk := idx_Expr h
    cases y with
    | var n' =>
      have h_n : n = n' := str_inj (congrArg (attrN 1) h)
      subst h_n; rfl
    | _ => exact absurd hk (Nat.ne_of_beq_eq_false rfl)
  | .lam ins b, y, h => by
    have hk := idx_Expr h
    cases y with
    | lam ins' b' =>
      have h_ins : ins = ins' := vars_inj (congrArg (attrN 1) h)
      have h_b : b = b' := inj_Expr b b' (congrArg (attrN 2) h)
      subst h_ins; subst h_b; rfl
    | _ => exact absurd hk (Nat.ne_of_beq_eq_false rfl)
  | .un op v, y, h => by
    have hk := idx_Expr h
    cases y with
    | un op' v' =>
      have h_op : op = op' := Cls.un.inj (congrArg clsOf h)
      have h_v : v = v' := inj_Expr v v' (congrArg (attrN 1) h)
      subst h_op; subst h_v; rfl
    | _ => exact absurd hk (Nat.ne_of_beq_eq_false rfl)
  | .bin op l r, y, h => by
    have hk := idx_Expr h
    cases y with
    | bin op' l' r' =>
      have h_op : op = op' := Cls.bin.inj (congrArg clsOf h)
      have h_l : l = l' := inj_Expr l l' (congrArg (attrN 1) h)
      have h_r : r = r' := inj_Expr r r' (congrArg (attrN 2) h)
      subst h_op; subst h_l; subst h_r; rfl
    | _ => exact absurd hk (Nat.ne_of_beq_eq_false rfl)
  | .not v, y, h => by
    have hk := idx_Expr h
    cases y with
    | not v' =>
      have h_v : v = v' := inj_Expr v v' (congrArg (attrN 1) h)
      subst h_v; rfl
    | _ => exact absurd hk (Nat.ne_of_beq_eq_false rfl)
  | .isNull v, y, h => by
    have hk := idx_Expr h
    cases y with
    | isNull v' =>
      have h_v : v = v' := inj_Expr v v' (congrArg (attrN 1) h)
      subst h_v; rfl
    | _ => exact absurd hk (Nat.ne_of_beq_eq_false rfl)
  | .between v l u, y, h => by
    have hk := idx_Expr h
    cases y with
    | between v' l' u' =>
      have h_v : v = v' := inj_Expr v v' (congrArg (attrN 1) h)
      have h_l : l = l' := inj_Expr l l' (congrArg (attrN 2) h)
      have h_u : u = u' := inj_Expr u u' (congrArg (attrN 3) h)
      subst h_v; subst h_l; subst h_u; rfl
    | _ => exact absurd hk (Nat.ne_of_beq_eq_false rfl)
  | .array vs, y, h => by
    have hk := idx_Expr h
    cases y with
    | array vs' =>
      have h_vs : vs = vs' := inj_Exprs vs vs' (Obj.list.inj (congrArg (attrN 1) h))
      subst h_vs; rfl
    | _ => exact absurd hk (Nat.ne_of_beq_eq_false rfl)
  | .inQuery v q, y, h => by
    have hk := idx_Expr h
    cases y with
    | inQuery v' q' =>
      have h_v : v = v' := inj_Expr v v' (congrArg (attrN 1) h)
      have h_q : q = q' := inj_Query q q' (congrArg (attrN 2) h)
      subst h_v; subst h_q; rfl
    | _ => exact absurd hk (Nat.ne_of_beq_eq_false rfl)
  | .inList v es, y, h => by
    have hk := idx_Expr h
    cases y with
    | inList v' es' =>
      have h_v : v = v' := inj_Expr v v' (congrArg (attrN 1) h)
      have h_es : es = es' := inj_Exprs es es' (Obj.list.inj (congrArg (attrN 2) h))
      subst h_v; subst h_es; rfl
    | _ => exact absurd hk (Nat.ne_of_beq_eq_false rfl)
  | .like v p e, y, h => by
    have hk := idx_Expr h
    cases y with
    | like v' p' e' =>
      have h_v : v = v' := inj_Expr v v' (congrArg (attrN 1) h)
      have h_p : p = p' := inj_Expr p p' (congrArg (attrN 2) h)
      have h_e : e = e' := inj_ExprOpt e e' (congrArg (attrN 3) h)
      subst h_v; subst h_p; subst h_e; rfl
    | _ => exact absurd hk (Nat.ne_of_beq_eq_false rfl)
  | .typeCtor v t, y, h => by
    have hk := idx_Expr h
    cases y with
    | typeCtor v' t' =>
      have h_v : v = v' := str_inj (congrArg (attrN 1) h)
      have h_t : t = t' := str_inj (congrArg (attrN 2) h)
      subst h_v; subst h_t; rfl
    | _ => exact absurd hk (Nat.ne_of_beq_eq_false rfl)
  | .row vs, y, h => by
    have hk := idx_Expr h
    cases y with
    | row vs' =>
      have h_vs : vs = vs' := inj_Exprs vs vs' (Obj.list.inj (congrArg (attrN 1) h))
      subst h_vs; rfl
    | _ => exact absurd hk (Nat.ne_of_beq_eq_false rfl)
  | .interval v f t, y, h => by
    have hk := idx_Expr h
    cases y with
    | interval v' f' t' =>
      have h_v : v = v' := str_inj (congrArg (attrN 1) h)
      have h_f : f = f' := str_inj (congrArg (attrN 2) h)
      have h_t : t = t' := optStr_inj (congrArg (attrN 3) h)
      subst h_v; subst h_f; subst h_t; rfl
    | _ => exact absurd hk (Nat.ne_of_beq_eq_false rfl)
  | .cast tr e t, y, h => by
    have hk := idx_Expr h
    cases y with
    | cast tr' e' t' =>
      have h_tr : tr = tr' := Cls.cast.inj (congrArg clsOf h)
      have h_e : e = e' := inj_Expr e e' (congrArg (attrN 1) h)
      have h_t : t = t' := Ty_inj _ _ (congrArg (attrN 0) h)
      subst h_tr; subst h_e; subst h_t; rfl
    | _ => exact absurd hk (Nat.ne_of_beq_eq_false rfl)
  | .subscript v i, y, h => by
    have hk := idx_Expr h
    cases y with
    | subscript v' i' =>
      have h_v : v = v' := inj_Expr v v' (congrArg (attrN 1) h)
      have h_i : i = i' := inj_Expr i i' (congrArg (attrN 2) h)
      subst h_v; subst h_i; rfl
    | _ => exact absurd hk (Nat.ne_of_beq_eq_false rfl)
  | .case v bs e, y, h => by
    have hk := idx_Expr h
    cases y with
    | case v' bs' e' =>
      have h_v : v = v' := inj_ExprOpt v v' (congrArg (attrN 3) h)
      have h_bs : bs = bs' := inj_Whens bs bs' (Obj.list.inj (congrArg (attrN 1) h))
      have h_e : e = e' := inj_Else e e' (congrArg (attrN 2) h)
      subst h_v; subst h_bs; subst h_e; rfl
    | _ => exact absurd hk (Nat.ne_of_beq_eq_false rfl)
  | .func f as, y, h => by
    have hk := idx_Expr h
    cases y with
    | func f' as' =>
      have hf : f = f' := Cls.fn.inj (congrArg clsOf h)
      subst hf
      have h_as : as = as' := inj_Exprs as as' (fnAttrs_inj (objs_not _) (objs_not _) (congrArg (fun o => (attrsOf o).drop 1) h))
      subst h_as; rfl
    | _ => exact absurd hk (Nat.ne_of_beq_eq_false rfl)
  | .agg f as ob fl w ign, y, h => by
    have hk := idx_Expr h
    cases y with
    | agg f' as' ob' fl' w' ign' =>
      have hf : f = f' := Cls.agg.inj (congrArg clsOf h)
      subst hf
      have h_as : as = as' := inj_Exprs as as' (argAttrs_inj _ _ _ (objs_not _) (objs_not _) (congrArg (fun o => (attrsOf o).drop 5) h))
      have h_ob : ob = ob' := inj_Ords ob ob' (optList_inj (congrArg (attrN 1) h))
      have h_fl : fl = fl' := inj_ExprOpt fl fl' (congrArg (attrN 2) h)
      have h_w : w = w' := inj_WinOpt w w' (congrArg (attrN 3) h)
      have h_ign : ign = ign' := enum2_inj (by decide) (congrArg (attrN 4) h)
      subst h_as; subst h_ob; subst h_fl; subst h_w; subst h_ign; rfl
    | _ => exact absurd hk (Nat.ne_of_beq_eq_false rfl)
  | .listagg v sep ov ob, y, h => by
    have hk := idx_Expr h
    cases y with
    | listagg v' sep' ov' ob' =>
      have h_v : v = v' := inj_Expr v v' (congrArg (attrN 5) h)
      have h_sep : sep = sep' := str_inj (congrArg (attrN 6) h)
      have h_ov : ov = ov' := filler_inj (congrArg (attrN 7) h)
      have h_ob : ob = ob' := inj_Ords ob ob' (optList_inj (congrArg (attrN 1) h))
      subst h_v; subst h_sep; subst h_ov; subst h_ob; rfl
    | _ => exact absurd hk (Nat.ne_of_beq_eq_false rfl)
  | .curTime f p, y, h => by
    have hk := idx_Expr h
    cases y with
    | curTime f' p' =>
      have h_f : f = f' := Cls.curTime.inj (congrArg clsOf h)
      have h_p : p = p' := int_inj (congrArg (attrN 1) h)
      subst h_f; subst h_p; rfl
    | _ => exact absurd hk (Nat.ne_of_beq_eq_false rfl)
  | .session f, y, h => by
    have hk := idx_Expr h
    cases y with
    | session f' =>
      have h_f : f = f' := Cls.session.inj (congrArg clsOf h)
      subst h_f; rfl
    | _ => exact absurd hk (Nat.ne_of_beq_eq_false rfl)
  | .normalize v fo, y, h => by
    have hk := idx_Expr h
    cases y with
    | normalize v' fo' =>
      have h_v : v = v' := inj_Expr v v' (congrArg (attrN 1) h)
      have h_fo : fo = fo' := optForm_inj (congrArg (attrN 2) h)
      subst h_v; subst h_fo; rfl
    | _ => exact absurd hk (Nat.ne_of_beq_eq_false rfl)
  | .query q, y, h => by
    have hk := idx_Expr h
    cases y with
    | query q' =>
      have h_q : q = q' := inj_Query q q' h
      subst h_q; rfl
    | _ => exact absurd hk (Nat.ne_of_beq_eq_false rfl)
theorem inj_Ord : ∀ x y : Ord, x.obj = y.obj → x = y
  | .mk v d nf, y, h => by
    cases y with
    | mk v' d' nf' =>
      have h_v : v = v' := inj_Expr v v' (congrArg (attrN 0) h)
      have h_d : d = d' := enum2_inj (by decide) (congrArg (attrN 1) h)
      have h_nf : nf = nf' := enum2_inj (by decide) (congrArg (attrN 2) h)
      subst h_v; subst h_d; subst h_nf; rfl
theorem inj_Bound : ∀ x y : Bound, x.obj = y.obj → x = y
  | .bounded t e, y, h => by
    have hk := idx_Bound h
    cases y with
    | bounded t' e' =>
      have h_t : t = t' := BoundType_inj (congrArg (attrN 0) h)
      have h_e : e = e' := inj_Expr e e' (congrArg (attrN 1) h)
      subst h_t; subst h_e; rfl
    | _ => exact absurd hk (Nat.ne_of_beq_eq_false rfl)
  | .unbounded t, y, h => by
    have hk := idx_Bound h
    cases y with
    | unbounded t' =>
      have h_t : t = t' := BoundType_inj (congrArg (attrN 0) h)
      subst h_t; rfl
    | _ => exact absurd hk (Nat.ne_of_beq_eq_false rfl)
  | .current, y, h => by
    have hk := idx_Bound h
    cases y with
    | current =>
      rfl
    | _ => exact absurd hk (Nat.ne_of_beq_eq_false rfl)
theorem inj_Win : ∀ x y : Win, x.obj = y.obj → x = y
  | .mk p ob ps f st en, y, h => by
    cases y with
    | mk p' ob' ps' f' st' en' =>
      have h_p : p = p' := optStr_inj (congrArg (attrN 0) h)
      have h_ob : ob = ob' := inj_Ords ob ob' (optList_inj (congrArg (attrN 1) h))
      have h_ps : ps = ps' := inj_Exprs ps ps' (optList_inj (congrArg (attrN 2) h))
      have h_f : f = f' := FrameType_inj (congrArg (attrN 3) h)
      have h_st : st = st' := inj_Bound st st' (congrArg (attrN 4) h)
      have h_en : en = en' := inj_Bound en en' (congrArg (attrN 5) h)
      subst h_p; subst h_ob; subst h_ps; subst h_f; subst h_st; subst h_en; rfl
theorem inj_Grp : ∀ x y : Grp, x.obj = y.obj → x = y
  | .set vs, y, h => by
    have hk := idx_Grp h
    cases y with
    | set vs' =>
      have h_vs : vs = vs' := inj_Exprs vs vs' (Obj.list.inj (congrArg (attrN 0) h))
      subst h_vs; rfl
    | _ => exact absurd hk (Nat.ne_of_beq_eq_false rfl)
  | .sets gs, y, h => by
    have hk := idx_Grp h
    cases y with
    | sets gs' =>
      have h_gs : gs = gs' := inj_Lists gs gs' (Obj.list.inj (congrArg (attrN 0) h))
      subst h_gs; rfl
    | _ => exact absurd hk (Nat.ne_of_beq_eq_false rfl)
  | .cube vs, y, h => by
    have hk := idx_Grp h
    cases y with
    | cube vs' =>
      have h_vs : vs = vs' := inj_Exprs vs vs' (Obj.list.inj (congrArg (attrN 0) h))
      subst h_vs; rfl
    | _ => exact absurd hk (Nat.ne_of_beq_eq_false rfl)
  | .rollup vs, y, h => by
    have hk := idx_Grp h
    cases y with
    | rollup vs' =>
      have h_vs : vs = vs' := inj_Exprs vs vs' (Obj.list.inj (congrArg (attrN 0) h))
      subst h_vs; rfl
    | _ => exact absurd hk (Nat.ne_of_beq_eq_false rfl)
theorem inj_GroupBy : ∀ x y : GroupBy, x.obj = y.obj → x = y
  | .mk gs d, y, h => by
    cases y with
    | mk gs' d' =>
      have h_gs : gs = gs' := inj_Grps gs gs' (Obj.list.inj (congrArg (attrN 0) h))
      have h_d : d = d' := enum2_inj (by decide) (congrArg (attrN 1) h)
      subst h_gs; subst h_d; rfl
theorem inj_Named : ∀ x y : Named, x.obj = y.obj → x = y
  | .mk r a cols, y, h => by
    cases y with
    | mk r' a' cols' =>
      have h_r : r = r' := inj_Rel r r' (congrArg (attrN 0) h)
      have h_a : a = a' := str_inj (congrArg (attrN 1) h)
      have h_cols : cols = cols' := names_inj (congrArg (attrN 2) h)
      subst h_r; subst h_a; subst h_cols; rfl
theorem inj_Rel : ∀ x y : Rel, x.obj = y.obj → x = y
  | .table t, y, h => by
    have hk := idx_Rel h
    cases y with
    | table t' =>
      have h_t : t = t' := TableRef_inj h
      subst h_t; rfl
    | _ => exact absurd hk (Nat.ne_of_beq_eq_false rfl)
  | .query q, y, h => by
    have hk := idx_Rel h
    cases y with
    | query q' =>
      have h_q : q = q' := inj_Query q q' h
      subst h_q; rfl
    | _ => exact absurd hk (Nat.ne_of_beq_eq_false rfl)
  | .aliased n, y, h => by
    have hk := idx_Rel h
    cases y with
    | aliased n' =>
      have h_n : n = n' := inj_Named n n' h
      subst h_n; rfl
    | _ => exact absurd hk (Nat.ne_of_beq_eq_false rfl)
  | .join l r t nat cr, y, h => by
    have hk := idx_Rel h
    cases y with
    | join l' r' t' nat' cr' =>
      have h_l : l = l' := inj_Rel l l' (congrArg (attrN 0) h)
      have h_r : r = r' := inj_Rel r r' (congrArg (attrN 1) h)
      have h_t : t = t' := JoinType_inj (congrArg (fun o => attrN 0 (attrN 2 o)) h)
      have h_nat : nat = nat' := bool_inj (congrArg (fun o => attrN 1 (attrN 2 o)) h)
      have h_cr : cr = cr' := inj_CritOpt cr cr' (congrArg (fun o => attrN 2 (attrN 2 o)) h)
      subst h_l; subst h_r; subst h_t; subst h_nat; subst h_cr; rfl
    | _ => exact absurd hk (Nat.ne_of_beq_eq_false rfl)
  | .unnest as ord, y, h => by
    have hk := idx_Rel h
    cases y with
    | unnest as' ord' =>
      have h_as : as = as' := inj_Exprs as as' (Obj.list.inj (congrArg (attrN 0) h))
      have h_ord : ord = ord' := bool_inj (congrArg (attrN 1) h)
      subst h_as; subst h_ord; rfl
    | _ => exact absurd hk (Nat.ne_of_beq_eq_false rfl)
  | .lateral q, y, h => by
    have hk := idx_Rel h
    cases y with
    | lateral q' =>
      have h_q : q = q' := inj_Query q q' (congrArg (attrN 0) h)
      subst h_q; rfl
    | _ => exact absurd hk (Nat.ne_of_beq_eq_false rfl)
  | .sample r t p, y, h => by
    have hk := idx_Rel h
    cases y with
    | sample r' t' p' =>
      have h_r : r = r' := inj_Rel r r' (congrArg (attrN 0) h)
      have h_t : t = t' := SampleType_inj (congrArg (attrN 1) h)
      have h_p : p = p' := inj_Expr p p' (congrArg (attrN 2) h)
      subst h_r; subst h_t; subst h_p; rfl
    | _ => exact absurd hk (Nat.ne_of_beq_eq_false rfl)
theorem inj_Crit : ∀ x y : Crit, x.obj = y.obj → x = y
  | .using cols, y, h => by
    have hk := idx_Crit h
    cases y with
    | «using» cols' =>
      have h_cols : cols = cols' := strs_inj (congrArg (attrN 0) h)
      subst h_cols; rfl
    | _ => exact absurd hk (Nat.ne_of_beq_eq_false rfl)
  | .on e, y, h => by
    have hk := idx_Crit h
    cases y with
    | on e' =>
      have h_e : e = e' := inj_Expr e e' (congrArg (attrN 0) h)
      subst h_e; rfl
    | _ => exact absurd hk (Nat.ne_of_beq_eq_false rfl)
theorem inj_ExprOpt : ∀ x y : Option Expr, Expr.objOpt x = Expr.objOpt y → x = y
  | none, none, _ => rfl
  | none, some b, h => absurd h.symm (Expr_not b)
  | some a, none, h => absurd h (Expr_not a)
  | some a, some b, h => by rw [inj_Expr a b h]
theorem inj_Exprs : ∀ x y : List Expr, Expr.objs x = Expr.objs y → x = y
  | [], [], _ => rfl
  | [], _ :: _, h => nomatch h
  | _ :: _, [], h => nomatch h
  | a :: r, b :: r', h => by rw [inj_Expr a b (List.cons.inj h).1, inj_Exprs r r' (List.cons.inj h).2]
theorem inj_Lists : ∀ x y : List (List Expr), Expr.objSets x = Expr.objSets y → x = y
  | [], [], _ => rfl
  | [], _ :: _, h => nomatch h
  | _ :: _, [], h => nomatch h
  | a :: r, b :: r', h => by rw [inj_Exprs a b (Obj.list.inj (congrArg (attrN 0) (List.cons.inj h).1)), inj_Lists r r' (List.cons.inj h).2]
theorem inj_Whens : ∀ x y : List (Expr × Expr), Expr.objWhens x = Expr.objWhens y → x = y
  | [], [], _ => rfl
  | [], (_, _) :: _, h => nomatch h
  | (_, _) :: _, [], h => nomatch h
  | (a, b) :: r, (a', b') :: r', h => by
    rw [inj_Expr a a' (congrArg (attrN 0) (List.cons.inj h).1), inj_Expr b b' (congrArg (attrN 1) (List.cons.inj h).1), inj_Whens r r' (List.cons.inj h).2]
theorem inj_Ords : ∀ x y : List Ord, Ord.objs x = Ord.objs y → x = y
  | [], [], _ => rfl
  | [], _ :: _, h => nomatch h
  | _ :: _, [], h => nomatch h
  | a :: r, b :: r', h => by rw [inj_Ord a b (List.cons.inj h).1, inj_Ords r r' (List.cons.inj h).2]
theorem inj_WinOpt : ∀ x y : Option Win, Win.objOpt x = Win.objOpt y → x = y
  | none, none, _ => rfl
  | none, some b, h => absurd h.symm (Win_not b)
  | some a, none, h => absurd h (Win_not a)
  | some a, some b, h => by rw [inj_Win a b h]
theorem inj_Grps : ∀ x y : List Grp, Grp.objs x = Grp.objs y → x = y
  | [], [], _ => rfl
  | [], _ :: _, h => nomatch h
  | _ :: _, [], h => nomatch h
  | a :: r, b :: r', h => by rw [inj_Grp a b (List.cons.inj h).1, inj_Grps r r' (List.cons.inj h).2]
theorem inj_GroupByOpt : ∀ x y : Option GroupBy, GroupBy.objOpt x = GroupBy.objOpt y → x = y
  | none, none, _ => rfl
  | none, some b, h => absurd h.symm (GroupBy_not b)
  | some a, none, h => absurd h (GroupBy_not a)
  | some a, some b, h => by rw [inj_GroupBy a b h]
theorem inj_NamedWins : ∀ x y : List (Str × Win), Win.objNamed x = Win.objNamed y → x = y
  | [], [], _ => rfl
  | [], (_, _) :: _, h => nomatch h
  | (_, _) :: _, [], h => nomatch h
  | (n, a) :: r, (n', a') :: r', h => by
    have hn : n = n' := (Prod.mk.inj (List.cons.inj h).1).1
    rw [hn, inj_Win a a' (Prod.mk.inj (List.cons.inj h).1).2, inj_NamedWins r r' (List.cons.inj h).2]
theorem inj_Nameds : ∀ x y : List Named, Named.objs x = Named.objs y → x = y
  | [], [], _ => rfl
  | [], _ :: _, h => nomatch h
  | _ :: _, [], h => nomatch h
  | a :: r, b :: r', h => by rw [inj_Named a b (List.cons.inj h).1, inj_Nameds r r' (List.cons.inj h).2]
theorem inj_RelOpt : ∀ x y : Option Rel, Rel.objOpt x = Rel.objOpt y → x = y
  | none, none, _ => rfl
  | none, some b, h => absurd h.symm (Rel_not b)
  | some a, none, h => absurd h (Rel_not a)
  | some a, some b, h => by rw [inj_Rel a b h]
theorem inj_CritOpt : ∀ x y : Option Crit, Crit.objOpt x = Crit.objOpt y → x = y
  | none, none, _ => rfl
  | none, some b, h => absurd h.symm (Crit_not b)
  | some a, none, h => absurd h (Crit_not a)
  | some a, some b, h => by rw [inj_Crit a b h]
theorem inj_Else : ∀ x y : Option Expr, Expr.objElse x = Expr.objElse y → x = y
  | none, none, _ => rfl
  | none, some _, h => nomatch h
  | some _, none, h => nomatch h
  | some a, some b, h => by rw [inj_Expr a b (congrArg (attrN 0) h)]
theorem inj_Query : ∀ x y : Query, x.obj = y.obj → x = y
  | .mk b off lim ob w, .mk b' off' lim' ob' w', h => by
    have h_off : off = off' := optInt_inj (congrArg (attrN 1) h)
    have h_lim : lim = lim' := optInt_inj (congrArg (attrN 2) h)
    have h_ob : ob = ob' := inj_Ords ob ob' (optList_inj (congrArg (attrN 3) h))
    have h_w : w = w' := inj_Nameds w w' (withObj_inj (congrArg (attrN 4) h))
    have h_b : b = b' := inj_QBody b b' (congrArg clsOf h) (congrArg (fun o => (attrsOf o).drop 5) h)
    subst h_off; subst h_lim; subst h_ob; subst h_w; subst h_b; rfl
theorem inj_QBody : ∀ x y : QBody, x.cls = y.cls → x.attrs = y.attrs → x = y
  | .select items fr wh gb hv d wins, y, hc, h => by
    cases y with
    | select items' fr' wh' gb' hv' d' wins' =>
      have h_items := inj_Exprs items items' (Obj.list.inj (congrArg (attrL 0) h))
      have h_fr := inj_RelOpt fr fr' (congrArg (attrL 1) h)
      have h_wh := inj_ExprOpt wh wh' (congrArg (attrL 2) h)
      have h_gb := inj_GroupByOpt gb gb' (congrArg (attrL 3) h)
      have h_hv := inj_ExprOpt hv hv' (congrArg (attrL 4) h)
      have h_d : d = d' := enum2_inj (by decide) (congrArg (attrL 5) h)
      have h_wins := inj_NamedWins wins wins' (windowObj_inj (congrArg (attrL 6) h))
      subst h_items; subst h_fr; subst h_wh; subst h_gb; subst h_hv; subst h_d; subst h_wins; rfl
    | _ => exact nomatch hc
  | .set k l r d, y, hc, h => by
    cases y with
    | set k' l' r' d' =>
      have h_k : k = k' := Cls.setQuery.inj hc
      have h_l := inj_Query l l' (congrArg (attrL 0) h)
      have h_r := inj_Query r r' (congrArg (attrL 1) h)
      have h_d : d = d' := enum2_inj (by decide) (congrArg (attrL 2) h)
      subst h_k; subst h_l; subst h_r; subst h_d; rfl
    | _ => exact nomatch hc
  | .table t, y, hc, h => by
    cases y with
    | table t' => rw [TableRef_inj (congrArg (attrL 0) h)]
    | _ => exact nomatch hc
  | .values es, y, hc, h => by
    cases y with
    | values es' => rw [inj_Exprs es es' (Obj.list.inj (congrArg (attrL 0) h))]
    | _ => exact nomatch hc
end

end Treeno
