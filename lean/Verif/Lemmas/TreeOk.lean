import Verif.Lemmas.TreeOf
/-! # The dicts of a tree hold nodes, so that it can be displayed -/
set_option linter.unusedVariables false
namespace Treeno

theorem optStr_dok : ∀ o, (Obj.optStr o).DictsOk
  | none => trivial
  | some _ => trivial
theorem optInt_dok : ∀ o, (Obj.optInt o).DictsOk
  | none => trivial
  | some _ => trivial
theorem optScalar_dok : ∀ o, (Obj.optScalar o).DictsOk
  | none => trivial
  | some _ => trivial
theorem optForm_dok : ∀ o, (Obj.optForm o).DictsOk
  | none => trivial
  | some .nfd => trivial
  | some .nfc => trivial
  | some .nfkd => trivial
  | some .nfkc => trivial
theorem optList_dok : ∀ {l}, Obj.DictsOkList l → (Obj.optList l).DictsOk
  | [], _ => trivial
  | _ :: _, h => h
theorem withObj_dok : ∀ {l}, Obj.DictsOkList l → (withObj l).DictsOk
  | [], _ => trivial
  | _ :: _, h => h
theorem windowObj_dok : ∀ {l : List (Str × Obj)}, Obj.DictsOkDict l → (windowObj l).DictsOk
  | [], _ => trivial
  | _ :: _, h => h
theorem map_dok {α} {f : α → Obj} (h : ∀ a, (f a).DictsOk) : ∀ l : List α, Obj.DictsOkList (l.map f)
  | [] => trivial
  | a :: r => ⟨h a, map_dok h r⟩
theorem enum2_dok (c y n b) : (Obj.enum2 c y n b).DictsOk := trivial
theorem quant_dok (b) : (quantifier b).DictsOk := trivial
theorem joinType_dok (t : JoinType) : t.obj.DictsOk := by cases t <;> trivial
theorem sampleType_dok (t : SampleType) : t.obj.DictsOk := by cases t <;> trivial
theorem frameType_dok (t : FrameType) : t.obj.DictsOk := by cases t <;> trivial
theorem boundType_dok (t : BoundType) : t.obj.DictsOk := by cases t <;> trivial
theorem names_dok (l : List Str) : (Obj.names l).DictsOk := optList_dok (map_dok (f := Obj.str) (fun _ => trivial) l)
theorem strs_dok (l : List Str) : (Obj.list (l.map .str)).DictsOk := map_dok (f := Obj.str) (fun _ => trivial) l


theorem Ty_dok (t : Ty) : t.obj.DictsOk := by cases t <;> exact .inl rfl
theorem type_dok : ∀ r, (typeAttr r).2.DictsOk
  | .ok t => Ty_dok t
  | .error _ => trivial
theorem var_dok (n : Str) : (varObj n).DictsOk := .inr ⟨⟨.inl rfl, type_dok (.ok .unknown)⟩, ⟨.inl rfl, trivial⟩, trivial⟩
theorem vars_dok (l : List Str) : (Obj.list (l.map varObj)).DictsOk := map_dok var_dok l
theorem filler_dok : ∀ o, (fillerObj o).DictsOk
  | none => trivial
  | some (_, _) => .inr ⟨⟨.inl rfl, trivial⟩, ⟨.inl rfl, trivial⟩, trivial⟩
theorem col_dok (c : Col) : c.obj.DictsOk :=
  .inr ⟨⟨.inl rfl, optStr_dok _⟩, ⟨.inl rfl, trivial⟩, ⟨.inl rfl, Ty_dok _⟩, trivial⟩
theorem table_dok (t : TableRef) : t.obj.DictsOk :=
  .inr ⟨⟨.inl rfl, trivial⟩, ⟨.inl rfl, optStr_dok _⟩, ⟨.inl rfl, optStr_dok _⟩, ⟨.inr rfl, .inr ⟨⟨.inl rfl, map_dok col_dok _⟩, trivial⟩⟩, trivial⟩

theorem argAttrs_doks : ∀ (ns : List Str) (as : List Obj), (∀ n ∈ ns, hiddenKey n = false) → Obj.DictsOkList as → Obj.DictsOkAttrs (argAttrs ns as)
  | [], [], _, _ => trivial
  | [], _ :: _, _, h => ⟨⟨.inl rfl, h⟩, trivial⟩
  | _ :: ns, [], hn, _ => ⟨⟨.inr rfl, trivial⟩, argAttrs_doks ns [] (fun n h => hn n (List.mem_cons_of_mem _ h)) trivial⟩
  | _ :: ns, _ :: r, hn, h => ⟨⟨.inl (hn _ List.mem_cons_self), h.1⟩, argAttrs_doks ns r (fun n h => hn n (List.mem_cons_of_mem _ h)) h.2⟩
theorem fn_names (f : Fn) : ∀ n ∈ f.attrNames, hiddenKey n = false := by cases f <;> decide
theorem agg_names (f : Agg) : ∀ n ∈ f.attrNames, hiddenKey n = false := by cases f <;> decide
theorem fnAttrs_doks (f : Fn) (as : List Obj) (h : Obj.DictsOkList as) : Obj.DictsOkAttrs (fnAttrs f as) := by
  have no : ∀ k : Str, (hiddenKey k = false ∨ Spec.held Obj.none = []) ∧ Obj.none.DictsOk := fun _ => ⟨.inr rfl, trivial⟩
  cases f
  case concat => exact ⟨⟨.inl rfl, h⟩, trivial⟩
  case coalesce => exact ⟨⟨.inl rfl, h⟩, trivial⟩
  case fromUnixtime =>
    match as, h with
    | [_, _, _], h => exact ⟨⟨.inl rfl, h.1⟩, no _, ⟨.inl rfl, h.2.1⟩, ⟨.inl rfl, h.2.2.1⟩, trivial⟩
    | [], _ => exact ⟨no _, no _, no _, no _, trivial⟩
    | [_], h => exact ⟨⟨.inl rfl, h.1⟩, no _, no _, no _, trivial⟩
    | [_, _], h => exact ⟨⟨.inl rfl, h.1⟩, ⟨.inl rfl, h.2.1⟩, no _, no _, trivial⟩
    | _ :: _ :: _ :: _ :: _, h => exact ⟨⟨.inl rfl, h.1⟩, ⟨.inl rfl, h.2.1⟩, ⟨.inl rfl, h.2.2⟩, no _, no _, trivial⟩
  all_goals exact argAttrs_doks _ _ (fn_names _) h
theorem Win_isNode (w : Win) : w.obj.tree.isNode = true := by cases w; rfl
theorem Win_label (w : Win) : w.obj.tree.label = c% "Window" := by cases w; rfl

set_option maxHeartbeats 1600000 in
mutual
theorem dok_Expr : ∀ x : Expr, x.obj.DictsOk
  | .lit v t => .inr ⟨⟨.inl rfl, Ty_dok _⟩, ⟨.inl rfl, optScalar_dok _⟩, trivial⟩
  | .field n tn t => .inr ⟨⟨.inl rfl, Ty_dok _⟩, ⟨.inl rfl, trivial⟩, ⟨.inl rfl, optStr_dok _⟩, trivial⟩
  | .fieldOf n b t => .inr ⟨⟨.inl rfl, Ty_dok _⟩, ⟨.inl rfl, trivial⟩, ⟨.inl rfl, dok_Expr b⟩, trivial⟩
  | .alias v n => .inr ⟨⟨.inl rfl, type_dok _⟩, ⟨.inl rfl, dok_Expr v⟩, ⟨.inl rfl, trivial⟩, trivial⟩
  | .star tn t => .inr ⟨⟨.inl rfl, Ty_dok _⟩, ⟨.inl rfl, optStr_dok _⟩, trivial⟩
  | .starOf b t => .inr ⟨⟨.inl rfl, Ty_dok _⟩, ⟨.inl rfl, dok_Expr b⟩, trivial⟩
  | .aliasedStar s as => .inr ⟨⟨.inl rfl, type_dok _⟩, ⟨.inl rfl, dok_Expr s⟩, ⟨.inl rfl, strs_dok _⟩, trivial⟩
  | .var n => var_dok _
  | .lam ins b => .inr ⟨⟨.inl rfl, type_dok _⟩, ⟨.inl rfl, vars_dok _⟩, ⟨.inl rfl, dok_Expr b⟩, trivial⟩
  | .un op v => .inr ⟨⟨.inl rfl, type_dok _⟩, ⟨.inl rfl, dok_Expr v⟩, trivial⟩
  | .bin op l r => .inr ⟨⟨.inl rfl, type_dok _⟩, ⟨.inl rfl, dok_Expr l⟩, ⟨.inl rfl, dok_Expr r⟩, trivial⟩
  | .not v => .inr ⟨⟨.inl rfl, type_dok _⟩, ⟨.inl rfl, dok_Expr v⟩, trivial⟩
  | .isNull v => .inr ⟨⟨.inl rfl, type_dok _⟩, ⟨.inl rfl, dok_Expr v⟩, trivial⟩
  | .between v l u => .inr ⟨⟨.inl rfl, type_dok _⟩, ⟨.inl rfl, dok_Expr v⟩, ⟨.inl rfl, dok_Expr l⟩, ⟨.inl rfl, dok_Expr u⟩, trivial⟩
  | .array vs => .inr ⟨⟨.inl rfl, type_dok _⟩, ⟨.inl rfl, dok_Exprs vs⟩, trivial⟩
  | .inQuery v q => .inr ⟨⟨.inl rfl, type_dok _⟩, ⟨.inl rfl, dok_Expr v⟩, ⟨.inl rfl, dok_Query q⟩, trivial⟩
  | .inList v es => .inr ⟨⟨.inl rfl, type_dok _⟩, ⟨.inl rfl, dok_Expr v⟩, ⟨.inl rfl, dok_Exprs es⟩, trivial⟩
  | .like v p e => .inr ⟨⟨.inl rfl, type_dok _⟩, ⟨.inl rfl, dok_Expr v⟩, ⟨.inl rfl, dok_Expr p⟩, ⟨.inl rfl, dok_ExprOpt e⟩, trivial⟩
  | .typeCtor v t => .inr ⟨⟨.inl rfl, type_dok _⟩, ⟨.inl rfl, trivial⟩, ⟨.inl rfl, trivial⟩, trivial⟩
  | .row vs => .inr ⟨⟨.inl rfl, type_dok _⟩, ⟨.inl rfl, dok_Exprs vs⟩, trivial⟩
  | .interval v f t => .inr ⟨⟨.inl rfl, type_dok _⟩, ⟨.inl rfl, trivial⟩, ⟨.inl rfl, trivial⟩, ⟨.inl rfl, optStr_dok _⟩, trivial⟩
  | .cast tr e t => .inr ⟨⟨.inl rfl, Ty_dok _⟩, ⟨.inl rfl, dok_Expr e⟩, trivial⟩
  | .subscript v i => .inr ⟨⟨.inl rfl, type_dok _⟩, ⟨.inl rfl, dok_Expr v⟩, ⟨.inl rfl, dok_Expr i⟩, trivial⟩
  | .case v bs e => .inr ⟨⟨.inl rfl, type_dok _⟩, ⟨.inl rfl, dok_Whens bs⟩, ⟨.inl rfl, dok_Else e⟩, ⟨.inl rfl, dok_ExprOpt v⟩, trivial⟩
  | .func f as => .inr ⟨⟨.inl rfl, type_dok _⟩, fnAttrs_doks f _ (dok_Exprs as)⟩
  | .agg f as ob fl w ign => .inr ⟨⟨.inl rfl, type_dok _⟩, ⟨.inl rfl, optList_dok (dok_Ords ob)⟩, ⟨.inl rfl, dok_ExprOpt fl⟩, ⟨.inl rfl, dok_WinOpt w⟩, ⟨.inl rfl, trivial⟩, argAttrs_doks _ _ (agg_names f) (dok_Exprs as)⟩
  | .listagg v sep ov ob => .inr ⟨⟨.inl rfl, type_dok _⟩, ⟨.inl rfl, optList_dok (dok_Ords ob)⟩, ⟨.inl rfl, trivial⟩, ⟨.inl rfl, trivial⟩, ⟨.inl rfl, trivial⟩, ⟨.inl rfl, dok_Expr v⟩, ⟨.inl rfl, trivial⟩, ⟨.inl rfl, filler_dok _⟩, trivial⟩
  | .curTime f p => .inr ⟨⟨.inl rfl, type_dok _⟩, ⟨.inl rfl, trivial⟩, trivial⟩
  | .session f => .inr ⟨⟨.inl rfl, type_dok (Expr.check (.session f))⟩, trivial⟩
  | .normalize v fo => .inr ⟨⟨.inl rfl, type_dok _⟩, ⟨.inl rfl, dok_Expr v⟩, ⟨.inl rfl, optForm_dok _⟩, trivial⟩
  | .query q => dok_Query q
theorem dok_Ord : ∀ x : Ord, x.obj.DictsOk
  | .mk v d nf => .inr ⟨⟨.inl rfl, dok_Expr v⟩, ⟨.inl rfl, enum2_dok _ _ _ _⟩, ⟨.inl rfl, enum2_dok _ _ _ _⟩, trivial⟩
theorem dok_Bound : ∀ x : Bound, x.obj.DictsOk
  | .bounded t e => .inr ⟨⟨.inl rfl, boundType_dok _⟩, ⟨.inl rfl, dok_Expr e⟩, trivial⟩
  | .unbounded t => .inr ⟨⟨.inl rfl, boundType_dok _⟩, trivial⟩
  | .current => .inr trivial
theorem dok_Win : ∀ x : Win, x.obj.DictsOk
  | .mk p ob ps f st en => .inr ⟨⟨.inl rfl, optStr_dok _⟩, ⟨.inl rfl, optList_dok (dok_Ords ob)⟩, ⟨.inl rfl, optList_dok (dok_Exprs ps)⟩, ⟨.inl rfl, frameType_dok _⟩, ⟨.inl rfl, dok_Bound st⟩, ⟨.inl rfl, dok_Bound en⟩, trivial⟩
theorem dok_Grp : ∀ x : Grp, x.obj.DictsOk
  | .set vs => .inr ⟨⟨.inl rfl, dok_Exprs vs⟩, trivial⟩
  | .sets gs => .inr ⟨⟨.inl rfl, dok_Lists gs⟩, trivial⟩
  | .cube vs => .inr ⟨⟨.inl rfl, dok_Exprs vs⟩, trivial⟩
  | .rollup vs => .inr ⟨⟨.inl rfl, dok_Exprs vs⟩, trivial⟩
theorem dok_GroupBy : ∀ x : GroupBy, x.obj.DictsOk
  | .mk gs d => .inr ⟨⟨.inl rfl, dok_Grps gs⟩, ⟨.inl rfl, enum2_dok _ _ _ _⟩, trivial⟩
theorem dok_Named : ∀ x : Named, x.obj.DictsOk
  | .mk r a cols => .inr ⟨⟨.inl rfl, dok_Rel r⟩, ⟨.inl rfl, trivial⟩, ⟨.inl rfl, names_dok _⟩, trivial⟩
theorem dok_Rel : ∀ x : Rel, x.obj.DictsOk
  | .table t => table_dok _
  | .query q => dok_Query q
  | .aliased n => dok_Named n
  | .join l r t nat cr => .inr ⟨⟨.inl rfl, dok_Rel l⟩, ⟨.inl rfl, dok_Rel r⟩, ⟨.inl rfl, .inr ⟨⟨.inl rfl, joinType_dok _⟩, ⟨.inl rfl, trivial⟩, ⟨.inl rfl, dok_CritOpt cr⟩, trivial⟩⟩, trivial⟩
  | .unnest as ord => .inr ⟨⟨.inl rfl, dok_Exprs as⟩, ⟨.inl rfl, trivial⟩, trivial⟩
  | .lateral q => .inr ⟨⟨.inl rfl, dok_Query q⟩, trivial⟩
  | .sample r t p => .inr ⟨⟨.inl rfl, dok_Rel r⟩, ⟨.inl rfl, sampleType_dok _⟩, ⟨.inl rfl, dok_Expr p⟩, trivial⟩
theorem dok_Crit : ∀ x : Crit, x.obj.DictsOk
  | .using cols => .inr ⟨⟨.inl rfl, strs_dok _⟩, trivial⟩
  | .on e => .inr ⟨⟨.inl rfl, dok_Expr e⟩, trivial⟩
theorem dok_ExprOpt : ∀ x : Option Expr, (Expr.objOpt x).DictsOk
  | none => trivial
  | some x => dok_Expr x
theorem dok_Exprs : ∀ x : List Expr, Obj.DictsOkList (Expr.objs x)
  | [] => trivial
  | x :: r => ⟨dok_Expr x, dok_Exprs r⟩
theorem dok_Lists : ∀ x : List (List Expr), Obj.DictsOkList (Expr.objSets x)
  | [] => trivial
  | x :: r => ⟨.inr ⟨⟨.inl rfl, dok_Exprs x⟩, trivial⟩, dok_Lists r⟩
theorem dok_Whens : ∀ x : List (Expr × Expr), Obj.DictsOkList (Expr.objWhens x)
  | [] => trivial
  | (c, v) :: r => ⟨.inr ⟨⟨.inl rfl, dok_Expr c⟩, ⟨.inl rfl, dok_Expr v⟩, trivial⟩, dok_Whens r⟩
theorem dok_Ords : ∀ x : List Ord, Obj.DictsOkList (Ord.objs x)
  | [] => trivial
  | x :: r => ⟨dok_Ord x, dok_Ords r⟩
theorem dok_WinOpt : ∀ x : Option Win, (Win.objOpt x).DictsOk
  | none => trivial
  | some x => dok_Win x
theorem dok_Grps : ∀ x : List Grp, Obj.DictsOkList (Grp.objs x)
  | [] => trivial
  | x :: r => ⟨dok_Grp x, dok_Grps r⟩
theorem dok_GroupByOpt : ∀ x : Option GroupBy, (GroupBy.objOpt x).DictsOk
  | none => trivial
  | some x => dok_GroupBy x
theorem dok_NamedWins : ∀ x : List (Str × Win), Obj.DictsOkDict (Win.objNamed x)
  | [] => trivial
  | (_, w) :: r => ⟨⟨Win_isNode w, Win_label w, dok_Win w⟩, dok_NamedWins r⟩
theorem dok_Nameds : ∀ x : List Named, Obj.DictsOkList (Named.objs x)
  | [] => trivial
  | x :: r => ⟨dok_Named x, dok_Nameds r⟩
theorem dok_RelOpt : ∀ x : Option Rel, (Rel.objOpt x).DictsOk
  | none => trivial
  | some x => dok_Rel x
theorem dok_CritOpt : ∀ x : Option Crit, (Crit.objOpt x).DictsOk
  | none => trivial
  | some x => dok_Crit x
theorem dok_Else : ∀ x : Option Expr, (Expr.objElse x).DictsOk
  | none => trivial
  | some x => .inr ⟨⟨.inl rfl, dok_Expr x⟩, trivial⟩
theorem dok_Query : ∀ x : Query, x.obj.DictsOk
  | .mk b off lim ob w => .inr
      ⟨⟨.inl rfl, type_dok _⟩, ⟨.inl rfl, optInt_dok _⟩, ⟨.inl rfl, optInt_dok _⟩, ⟨.inl rfl, optList_dok (dok_Ords ob)⟩, ⟨.inl rfl, withObj_dok (dok_Nameds w)⟩, dok_QBody b⟩
theorem dok_QBody : ∀ x : QBody, Obj.DictsOkAttrs x.attrs
  | .select items fr wh gb hv d wins => ⟨⟨.inl rfl, dok_Exprs items⟩, ⟨.inl rfl, dok_RelOpt fr⟩, ⟨.inl rfl, dok_ExprOpt wh⟩, ⟨.inl rfl, dok_GroupByOpt gb⟩, ⟨.inl rfl, dok_ExprOpt hv⟩, ⟨.inl rfl, quant_dok d⟩, ⟨.inl rfl, windowObj_dok (dok_NamedWins wins)⟩, trivial⟩
  | .set _ l r d => ⟨⟨.inl rfl, dok_Query l⟩, ⟨.inl rfl, dok_Query r⟩, ⟨.inl rfl, quant_dok d⟩, trivial⟩
  | .table t => ⟨⟨.inl rfl, table_dok t⟩, trivial⟩
  | .values es => ⟨⟨.inl rfl, dok_Exprs es⟩, trivial⟩
end

end Treeno
