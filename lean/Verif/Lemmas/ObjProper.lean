import Verif.Spec.Dicts
import Verif.Spec.Identity
import Verif.Lemmas.ObjEqs
/-! # The objects of trees have distinct keys -/
namespace Treeno

theorem optStr_proper : ∀ o, (Obj.optStr o).Proper
  | none => trivial
  | some _ => trivial
theorem optInt_proper : ∀ o, (Obj.optInt o).Proper
  | none => trivial
  | some _ => trivial
theorem optScalar_proper : ∀ o, (Obj.optScalar o).Proper
  | none => trivial
  | some _ => trivial
theorem optForm_proper : ∀ o, (Obj.optForm o).Proper
  | none => trivial
  | some .nfd => trivial
  | some .nfc => trivial
  | some .nfkd => trivial
  | some .nfkc => trivial
theorem optList_proper : ∀ {l}, Obj.ProperList l → (Obj.optList l).Proper
  | [], _ => trivial
  | _ :: _, h => h
theorem withObj_proper : ∀ {l}, Obj.ProperList l → (withObj l).Proper
  | [], _ => ⟨List.nodup_nil, trivial⟩
  | _ :: _, h => h
theorem windowObj_proper : ∀ {l : List (Str × Obj)}, (l.map Prod.fst).Nodup → Obj.Propers l → (windowObj l).Proper
  | [], _, _ => trivial
  | _ :: _, h, h' => ⟨h, h'⟩
theorem map_proper {α} {f : α → Obj} (h : ∀ a, (f a).Proper) : ∀ l : List α, Obj.ProperList (l.map f)
  | [] => trivial
  | a :: r => ⟨h a, map_proper h r⟩
theorem enum2_proper (c y n b) : (Obj.enum2 c y n b).Proper := trivial
theorem quant_proper (b) : (quantifier b).Proper := trivial
theorem joinType_proper (t : JoinType) : t.obj.Proper := by cases t <;> trivial
theorem sampleType_proper (t : SampleType) : t.obj.Proper := by cases t <;> trivial
theorem frameType_proper (t : FrameType) : t.obj.Proper := by cases t <;> trivial
theorem boundType_proper (t : BoundType) : t.obj.Proper := by cases t <;> trivial
theorem names_proper (l : List Str) : (Obj.names l).Proper := optList_proper (map_proper (f := Obj.str) (fun _ => trivial) l)
theorem strs_proper (l : List Str) : (Obj.list (l.map .str)).Proper := map_proper (f := Obj.str) (fun _ => trivial) l

theorem dataType_proper {n : Str} {ps : List (Str × Obj)} (h : (ps.map Prod.fst).Nodup) (h' : Obj.Propers ps) : (Obj.dataType n ps).Proper :=
  ⟨by dsimp only [List.map]; decide, trivial, ⟨h, h'⟩, trivial⟩
theorem optAttr_nodup (k) : ∀ o, ((Obj.optAttr k o).map Prod.fst).Nodup ∧ Obj.Propers (Obj.optAttr k o)
  | none => ⟨List.nodup_nil, trivial⟩
  | some _ => ⟨List.nodup_cons.mpr ⟨nofun, List.nodup_nil⟩, trivial, trivial⟩
theorem timeAttr (p : Option Int) : ((c% "timezone") :: (Obj.optAttr (c% "precision") p).map Prod.fst).Nodup := by
  cases p with
  | none => decide
  | some _ => dsimp only [Obj.optAttr, List.map]; decide

mutual
theorem Ty_proper : ∀ t : Ty, t.obj.Proper
  | .simple _ => dataType_proper List.nodup_nil trivial
  | .decimal _ _ => dataType_proper (by dsimp only [List.map]; decide) ⟨trivial, trivial, trivial⟩
  | .varchar n => dataType_proper (optAttr_nodup _ n).1 (optAttr_nodup _ n).2
  | .char _ => dataType_proper (by dsimp only [List.map]; decide) ⟨trivial, trivial⟩
  | .time p _ => dataType_proper (timeAttr p) ⟨trivial, (optAttr_nodup _ p).2⟩
  | .timestamp p _ => dataType_proper (timeAttr p) ⟨trivial, (optAttr_nodup _ p).2⟩
  | .interval _ => dataType_proper (by dsimp only [List.map]; decide) ⟨trivial, trivial, trivial⟩
  | .array t => dataType_proper (by dsimp only [List.map]; decide) ⟨Ty_proper t, trivial⟩
  | .map a b => dataType_proper (by dsimp only [List.map]; decide) ⟨Ty_proper a, Ty_proper b, trivial⟩
  | .row l => dataType_proper (by dsimp only [List.map]; decide) ⟨Tys_proper l, trivial⟩
  | .qdigest t => dataType_proper (by dsimp only [List.map]; decide) ⟨Ty_proper t, trivial⟩
theorem Tys_proper : ∀ l : List Ty, Obj.ProperList (Ty.objs l)
  | [] => trivial
  | t :: r => ⟨Ty_proper t, Tys_proper r⟩
end

theorem type_proper : ∀ r, (typeAttr r).2.Proper
  | .ok t => Ty_proper t
  | .error _ => trivial
theorem inst_proper {c : Cls} {as : List (Str × Obj)} (h : (as.map Prod.fst).Nodup) (h' : Obj.Propers as) : (Obj.inst c as).Proper := ⟨h, h'⟩
theorem var_proper (n : Str) : (varObj n).Proper := inst_proper (by dsimp only [List.map, typeAttr]; decide) ⟨type_proper (.ok .unknown), trivial, trivial⟩
theorem vars_proper (l : List Str) : (Obj.list (l.map varObj)).Proper := map_proper var_proper l
theorem filler_proper : ∀ o, (fillerObj o).Proper
  | none => trivial
  | some (_, _) => inst_proper (by dsimp only [List.map]; decide) ⟨trivial, trivial, trivial⟩
theorem col_proper (c : Col) : c.obj.Proper :=
  inst_proper (by dsimp only [List.map]; decide) ⟨optStr_proper _, trivial, Ty_proper _, trivial⟩
theorem table_proper (t : TableRef) : t.obj.Proper :=
  inst_proper (by dsimp only [List.map]; decide) ⟨trivial, optStr_proper _, optStr_proper _,
    inst_proper (by dsimp only [List.map]; decide) ⟨map_proper col_proper _, trivial⟩, trivial⟩

theorem argAttrs_keys : ∀ (ns : List Str) (as : List Obj), (argAttrs ns as).map Prod.fst = ns ∨ (argAttrs ns as).map Prod.fst = ns ++ [[]]
  | [], [] => .inl rfl
  | [], _ :: _ => .inr rfl
  | n :: ns, [] => by
    rcases argAttrs_keys ns [] with h | h
    · exact .inl (congrArg (n :: ·) h)
    · exact .inr (congrArg (n :: ·) h)
  | n :: ns, _ :: r => by
    rcases argAttrs_keys ns r with h | h
    · exact .inl (congrArg (n :: ·) h)
    · exact .inr (congrArg (n :: ·) h)
theorem argAttrs_propers : ∀ (ns : List Str) (as : List Obj), Obj.ProperList as → Obj.Propers (argAttrs ns as)
  | [], [], _ => trivial
  | [], _ :: _, h => ⟨h, trivial⟩
  | _ :: ns, [], _ => ⟨trivial, argAttrs_propers ns [] trivial⟩
  | _ :: ns, _ :: r, h => ⟨h.1, argAttrs_propers ns r h.2⟩
theorem nodup_names {ks ns : List Str} {as : List Obj} (h : (ks ++ (ns ++ [[]])).Nodup) : (ks ++ (argAttrs ns as).map Prod.fst).Nodup := by
  rcases argAttrs_keys ns as with e | e <;> rw [e]
  · rw [← List.append_assoc] at h
    exact List.Nodup.sublist (List.sublist_append_left _ _) h
  · exact h
theorem fnAttrs_nodup (f : Fn) (as : List Obj) : ((c% "data_type") :: (fnAttrs f as).map Prod.fst).Nodup := by
  cases f
  case concat => dsimp only [fnAttrs, List.map]; decide
  case coalesce => dsimp only [fnAttrs, List.map]; decide
  case fromUnixtime =>
    match as with
    | [_, _, _] => dsimp only [fnAttrs, List.map]; decide
    | [] | [_] | [_, _] | _ :: _ :: _ :: _ :: _ =>
      dsimp only [fnAttrs, argAttrs, List.map, List.cons_append, List.nil_append]; decide
  all_goals exact nodup_names (ks := [c% "data_type"]) (by decide)
theorem fnAttrs_propers (f : Fn) (as : List Obj) (h : Obj.ProperList as) : Obj.Propers (fnAttrs f as) := by
  cases f
  case concat => exact ⟨h, trivial⟩
  case coalesce => exact ⟨h, trivial⟩
  case fromUnixtime =>
    match as, h with
    | [_, _, _], h => exact ⟨h.1, trivial, h.2.1, h.2.2.1, trivial⟩
    | [], _ => exact ⟨trivial, trivial, trivial, trivial, trivial⟩
    | [_], h => exact ⟨h.1, trivial, trivial, trivial, trivial⟩
    | [_, _], h => exact ⟨h.1, h.2.1, trivial, trivial, trivial⟩
    | _ :: _ :: _ :: _ :: _, h => exact ⟨h.1, h.2.1, h.2.2, trivial, trivial, trivial⟩
  all_goals exact argAttrs_propers _ _ h
theorem aggAttrs_nodup (f : Agg) (as : List Obj) : ([c% "data_type", c% "orderby", c% "filter_", c% "window", c% "null_treatment"] ++
    (argAttrs f.attrNames as).map Prod.fst).Nodup := by
  cases f <;> exact nodup_names (by decide)

set_option maxHeartbeats 1600000 in
mutual
theorem pr_Expr : ∀ x : Expr, x.Dicts → x.obj.Proper
  | .lit v t, _ => inst_proper (by dsimp only [List.map, typeAttr]; decide) ⟨Ty_proper _, optScalar_proper _, trivial⟩
  | .field n tn t, _ => inst_proper (by dsimp only [List.map, typeAttr]; decide) ⟨Ty_proper _, trivial, optStr_proper _, trivial⟩
  | .fieldOf n b t, h => inst_proper (by dsimp only [List.map, typeAttr]; decide) ⟨Ty_proper _, trivial, pr_Expr b h, trivial⟩
  | .alias v n, h => inst_proper (by dsimp only [List.map, typeAttr]; decide) ⟨type_proper _, pr_Expr v h, trivial, trivial⟩
  | .star tn t, _ => inst_proper (by dsimp only [List.map, typeAttr]; decide) ⟨Ty_proper _, optStr_proper _, trivial⟩
  | .starOf b t, h => inst_proper (by dsimp only [List.map, typeAttr]; decide) ⟨Ty_proper _, pr_Expr b h, trivial⟩
  | .aliasedStar s as, h => inst_proper (by dsimp only [List.map, typeAttr]; decide) ⟨type_proper _, pr_Expr s h, strs_proper _, trivial⟩
  | .var n, _ => var_proper _
  | .lam ins b, h => inst_proper (by dsimp only [List.map, typeAttr]; decide) ⟨type_proper _, vars_proper _, pr_Expr b h, trivial⟩
  | .un op v, h => inst_proper (by dsimp only [List.map, typeAttr]; decide) ⟨type_proper _, pr_Expr v h, trivial⟩
  | .bin op l r, h => inst_proper (by dsimp only [List.map, typeAttr]; decide) ⟨type_proper _, pr_Expr l h.1, pr_Expr r h.2, trivial⟩
  | .not v, h => inst_proper (by dsimp only [List.map, typeAttr]; decide) ⟨type_proper _, pr_Expr v h, trivial⟩
  | .isNull v, h => inst_proper (by dsimp only [List.map, typeAttr]; decide) ⟨type_proper _, pr_Expr v h, trivial⟩
  | .between v l u, h => inst_proper (by dsimp only [List.map, typeAttr]; decide) ⟨type_proper _, pr_Expr v h.1, pr_Expr l h.2.1, pr_Expr u h.2.2, trivial⟩
  | .array vs, h => inst_proper (by dsimp only [List.map, typeAttr]; decide) ⟨type_proper _, pr_Exprs vs h, trivial⟩
  | .inQuery v q, h => inst_proper (by dsimp only [List.map, typeAttr]; decide) ⟨type_proper _, pr_Expr v h.1, pr_Query q h.2, trivial⟩
  | .inList v es, h => inst_proper (by dsimp only [List.map, typeAttr]; decide) ⟨type_proper _, pr_Expr v h.1, pr_Exprs es h.2, trivial⟩
  | .like v p e, h => inst_proper (by dsimp only [List.map, typeAttr]; decide) ⟨type_proper _, pr_Expr v h.1, pr_Expr p h.2.1, pr_ExprOpt e h.2.2, trivial⟩
  | .typeCtor v t, _ => inst_proper (by dsimp only [List.map, typeAttr]; decide) ⟨type_proper _, trivial, trivial, trivial⟩
  | .row vs, h => inst_proper (by dsimp only [List.map, typeAttr]; decide) ⟨type_proper _, pr_Exprs vs h, trivial⟩
  | .interval v f t, _ => inst_proper (by dsimp only [List.map, typeAttr]; decide) ⟨type_proper _, trivial, trivial, optStr_proper _, trivial⟩
  | .cast tr e t, h => inst_proper (by dsimp only [List.map, typeAttr]; decide) ⟨Ty_proper _, pr_Expr e h, trivial⟩
  | .subscript v i, h => inst_proper (by dsimp only [List.map, typeAttr]; decide) ⟨type_proper _, pr_Expr v h.1, pr_Expr i h.2, trivial⟩
  | .case v bs e, h => inst_proper (by dsimp only [List.map, typeAttr]; decide) ⟨type_proper _, pr_Whens bs h.2.1, pr_Else e h.2.2, pr_ExprOpt v h.1, trivial⟩
  | .func f as, h => inst_proper (fnAttrs_nodup f _) ⟨type_proper _, fnAttrs_propers f _ (pr_Exprs as h)⟩
  | .agg f as ob fl w ign, h => inst_proper (aggAttrs_nodup f _) ⟨type_proper _, optList_proper (pr_Ords ob h.2.1), pr_ExprOpt fl h.2.2.1, pr_WinOpt w h.2.2.2, trivial, argAttrs_propers _ _ (pr_Exprs as h.1)⟩
  | .listagg v sep ov ob, h => inst_proper (by dsimp only [List.map, typeAttr]; decide) ⟨type_proper _, optList_proper (pr_Ords ob h.2), trivial, trivial, trivial, pr_Expr v h.1, trivial, filler_proper _, trivial⟩
  | .curTime f p, _ => inst_proper (by dsimp only [List.map, typeAttr]; decide) ⟨type_proper _, trivial, trivial⟩
  | .session f, _ => inst_proper (by dsimp only [List.map, typeAttr]; decide) ⟨type_proper (Expr.check (.session f)), trivial⟩
  | .normalize v fo, h => inst_proper (by dsimp only [List.map, typeAttr]; decide) ⟨type_proper _, pr_Expr v h, optForm_proper _, trivial⟩
  | .query q, h => pr_Query q h
theorem pr_Ord : ∀ x : Ord, x.Dicts → x.obj.Proper
  | .mk v d nf, h => inst_proper (by dsimp only [List.map, typeAttr]; decide) ⟨pr_Expr v h, enum2_proper _ _ _ _, enum2_proper _ _ _ _, trivial⟩
theorem pr_Bound : ∀ x : Bound, x.Dicts → x.obj.Proper
  | .bounded t e, h => inst_proper (by dsimp only [List.map, typeAttr]; decide) ⟨boundType_proper _, pr_Expr e h, trivial⟩
  | .unbounded t, _ => inst_proper (by dsimp only [List.map, typeAttr]; decide) ⟨boundType_proper _, trivial⟩
  | .current, _ => inst_proper (by dsimp only [List.map, typeAttr]; decide) trivial
theorem pr_Win : ∀ x : Win, x.Dicts → x.obj.Proper
  | .mk p ob ps f st en, h => inst_proper (by dsimp only [List.map, typeAttr]; decide) ⟨optStr_proper _, optList_proper (pr_Ords ob h.1), optList_proper (pr_Exprs ps h.2.1), frameType_proper _, pr_Bound st h.2.2.1, pr_Bound en h.2.2.2, trivial⟩
theorem pr_Grp : ∀ x : Grp, x.Dicts → x.obj.Proper
  | .set vs, h => inst_proper (by dsimp only [List.map, typeAttr]; decide) ⟨pr_Exprs vs h, trivial⟩
  | .sets gs, h => inst_proper (by dsimp only [List.map, typeAttr]; decide) ⟨pr_Lists gs h, trivial⟩
  | .cube vs, h => inst_proper (by dsimp only [List.map, typeAttr]; decide) ⟨pr_Exprs vs h, trivial⟩
  | .rollup vs, h => inst_proper (by dsimp only [List.map, typeAttr]; decide) ⟨pr_Exprs vs h, trivial⟩
theorem pr_GroupBy : ∀ x : GroupBy, x.Dicts → x.obj.Proper
  | .mk gs d, h => inst_proper (by dsimp only [List.map, typeAttr]; decide) ⟨pr_Grps gs h, enum2_proper _ _ _ _, trivial⟩
theorem pr_Named : ∀ x : Named, x.Dicts → x.obj.Proper
  | .mk r a cols, h => inst_proper (by dsimp only [List.map, typeAttr]; decide) ⟨pr_Rel r h, trivial, names_proper _, trivial⟩
theorem pr_Rel : ∀ x : Rel, x.Dicts → x.obj.Proper
  | .table t, _ => table_proper _
  | .query q, h => pr_Query q h
  | .aliased n, h => pr_Named n h
  | .join l r t nat cr, h => inst_proper (by dsimp only [List.map, typeAttr]; decide) ⟨pr_Rel l h.1, pr_Rel r h.2.1, inst_proper (by dsimp only [List.map, typeAttr]; decide) ⟨joinType_proper _, trivial, pr_CritOpt cr h.2.2, trivial⟩, trivial⟩
  | .unnest as ord, h => inst_proper (by dsimp only [List.map, typeAttr]; decide) ⟨pr_Exprs as h, trivial, trivial⟩
  | .lateral q, h => inst_proper (by dsimp only [List.map, typeAttr]; decide) ⟨pr_Query q h, trivial⟩
  | .sample r t p, h => inst_proper (by dsimp only [List.map, typeAttr]; decide) ⟨pr_Rel r h.1, sampleType_proper _, pr_Expr p h.2, trivial⟩
theorem pr_Crit : ∀ x : Crit, x.Dicts → x.obj.Proper
  | .using cols, _ => inst_proper (by dsimp only [List.map, typeAttr]; decide) ⟨strs_proper _, trivial⟩
  | .on e, h => inst_proper (by dsimp only [List.map, typeAttr]; decide) ⟨pr_Expr e h, trivial⟩
theorem pr_ExprOpt : ∀ x : Option Expr, Expr.DictsOpt x → (Expr.objOpt x).Proper
  | none, _ => trivial
  | some x, h => pr_Expr x h
theorem pr_Exprs : ∀ x : List Expr, Expr.DictsAll x → Obj.ProperList (Expr.objs x)
  | [], _ => trivial
  | x :: r, h => ⟨pr_Expr x h.1, pr_Exprs r h.2⟩
theorem pr_Lists : ∀ x : List (List Expr), Expr.DictsLists x → Obj.ProperList (Expr.objSets x)
  | [], _ => trivial
  | x :: r, h => ⟨inst_proper (by dsimp only [List.map, typeAttr]; decide) ⟨pr_Exprs x h.1, trivial⟩, pr_Lists r h.2⟩
theorem pr_Whens : ∀ x : List (Expr × Expr), Expr.DictsWhens x → Obj.ProperList (Expr.objWhens x)
  | [], _ => trivial
  | (c, v) :: r, h => ⟨inst_proper (by dsimp only [List.map, typeAttr]; decide) ⟨pr_Expr c h.1, pr_Expr v h.2.1, trivial⟩, pr_Whens r h.2.2⟩
theorem pr_Ords : ∀ x : List Ord, Ord.DictsAll x → Obj.ProperList (Ord.objs x)
  | [], _ => trivial
  | x :: r, h => ⟨pr_Ord x h.1, pr_Ords r h.2⟩
theorem pr_WinOpt : ∀ x : Option Win, Win.DictsOpt x → (Win.objOpt x).Proper
  | none, _ => trivial
  | some x, h => pr_Win x h
theorem pr_Grps : ∀ x : List Grp, Grp.DictsAll x → Obj.ProperList (Grp.objs x)
  | [], _ => trivial
  | x :: r, h => ⟨pr_Grp x h.1, pr_Grps r h.2⟩
theorem pr_GroupByOpt : ∀ x : Option GroupBy, GroupBy.DictsOpt x → (GroupBy.objOpt x).Proper
  | none, _ => trivial
  | some x, h => pr_GroupBy x h
theorem pr_NamedWins : ∀ x : List (Str × Win), Win.DictsNamed x → Obj.Propers (Win.objNamed x) ∧ (Win.objNamed x).map Prod.fst = x.map Prod.fst
  | [], _ => ⟨trivial, rfl⟩
  | (n, w) :: r, h => ⟨⟨pr_Win w h.1, (pr_NamedWins r h.2).1⟩, congrArg (n :: ·) (pr_NamedWins r h.2).2⟩
theorem pr_Nameds : ∀ x : List Named, Named.DictsAll x → Obj.ProperList (Named.objs x)
  | [], _ => trivial
  | x :: r, h => ⟨pr_Named x h.1, pr_Nameds r h.2⟩
theorem pr_RelOpt : ∀ x : Option Rel, Rel.DictsOpt x → (Rel.objOpt x).Proper
  | none, _ => trivial
  | some x, h => pr_Rel x h
theorem pr_CritOpt : ∀ x : Option Crit, Crit.DictsOpt x → (Crit.objOpt x).Proper
  | none, _ => trivial
  | some x, h => pr_Crit x h
theorem pr_Else : ∀ x : Option Expr, Expr.DictsOpt x → (Expr.objElse x).Proper
  | none, _ => trivial
  | some x, h => inst_proper (by dsimp only [List.map, typeAttr]; decide) ⟨pr_Expr x h, trivial⟩
theorem pr_Query : ∀ x : Query, x.Dicts → x.obj.Proper
  | .mk b off lim ob w, h => inst_proper (pr_QBody b h.1).1
      ⟨type_proper _, optInt_proper _, optInt_proper _, optList_proper (pr_Ords ob h.2.1), withObj_proper (pr_Nameds w h.2.2), (pr_QBody b h.1).2⟩
theorem pr_QBody : ∀ x : QBody, x.Dicts → ([c% "data_type", c% "offset", c% "limit", c% "orderby", c% "with_"] ++ x.attrs.map Prod.fst).Nodup ∧ Obj.Propers x.attrs
  | .select items fr wh gb hv d wins, h => ⟨by dsimp only [QBody.attrs, List.map]; decide,
      pr_Exprs items h.1, pr_RelOpt fr h.2.1, pr_ExprOpt wh h.2.2.1, pr_GroupByOpt gb h.2.2.2.1, pr_ExprOpt hv h.2.2.2.2.1, quant_proper d,
      windowObj_proper ((pr_NamedWins wins h.2.2.2.2.2.1).2.symm ▸ h.2.2.2.2.2.2) (pr_NamedWins wins h.2.2.2.2.2.1).1, trivial⟩
  | .set _ l r d, h => ⟨by dsimp only [QBody.attrs, List.map]; decide, pr_Query l h.1, pr_Query r h.2, quant_proper d, trivial⟩
  | .table t, _ => ⟨by dsimp only [QBody.attrs, List.map]; decide, table_proper t, trivial⟩
  | .values es, h => ⟨by dsimp only [QBody.attrs, List.map]; decide, pr_Exprs es h, trivial⟩
end

end Treeno
