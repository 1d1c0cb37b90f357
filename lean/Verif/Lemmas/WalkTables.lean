import Verif.Spec.TablesOf
import Verif.Spec.TreeMap
import Verif.Spec.Schemas
import Verif.Schema
/-!
# When rebuilding a tree succeeds

The cases are generated; each follows from those of the parts.
-/
set_option autoImplicit false
namespace Treeno
open Spec

/-- The traversal `w` gives `m`, unless there are tables. -/
def Outcome {α : Type} (w : Except Err α) (t : List TableRef) (m : α) : Prop :=
  (t = [] → w = .ok m) ∧ (t ≠ [] → w = .error .typeError)

theorem out_pure {α : Type} (a : α) : Outcome (.ok a) [] a := ⟨fun _ => rfl, fun h => absurd rfl h⟩
theorem out_table (t : TableRef) : Outcome (evolveTable t) [t] (id t) := ⟨fun h => (List.cons_ne_nil _ _ h).elim, fun _ => rfl⟩
theorem out_last {α β : Type} {w : Except Err α} {t : List TableRef} {m : α} {f : α → β} (h : Outcome w t m) :
    Outcome (w >>= fun a => .ok (f a)) t (f m) :=
  ⟨fun ht => by rw [h.1 ht]; rfl, fun ht => by rw [h.2 ht]; rfl⟩
theorem out_bind {α β : Type} {w : Except Err α} {t t' : List TableRef} {m : α} {f : α → Except Err β} {r : β}
    (h : Outcome w t m) (h' : Outcome (f m) t' r) : Outcome (w >>= f) (t ++ t') r := by
  by_cases ht : t = []
  · rw [h.1 ht, ht]; exact h'
  · refine ⟨fun e => absurd (List.append_eq_nil_iff.1 e).1 ht, fun _ => by rw [h.2 ht]; rfl⟩
theorem wt_field (ins : List Str) (n : Str) (t : Ty) :
    Outcome (walkExpr (lambdaLeaf ins) evolveTable (.field n none t)) [] (bindNode ins (.field n none t)) := by
  refine ⟨fun _ => ?_, fun h => absurd rfl h⟩
  show ((if ins.contains n then some (Except.ok (Expr.var n)) else none).getD (.ok (.field n none t)) : Except Err Expr) =
    .ok (if n ∈ ins then .var n else .field n none t)
  by_cases h : n ∈ ins
  · rw [if_pos h, if_pos (List.contains_iff_mem.2 h)]; rfl
  · rw [if_neg h, if_neg (fun k => h (List.contains_iff_mem.1 k))]; rfl

mutual
theorem wt_Expr (inp : List Str) : ∀ x : Expr, Outcome (walkExpr (lambdaLeaf inp) evolveTable x) (tabsExpr x) (mapExpr (bindNode inp) id x)
  | .lit v t => out_pure _
  | .field n none t => wt_field inp n t
  | .field n (some _) t => out_pure _
  | .fieldOf n b t => out_last (wt_Expr inp b)
  | .alias v n => out_last (wt_Expr inp v)
  | .star tn t => out_pure _
  | .starOf b t => out_last (wt_Expr inp b)
  | .aliasedStar s as => out_last (wt_Expr inp s)
  | .var n => out_pure _
  | .lam ins b => out_last (wt_Expr inp b)
  | .un op v => out_last (wt_Expr inp v)
  | .bin op l r => out_bind (wt_Expr inp l) (out_last (wt_Expr inp r))
  | .not v => out_last (wt_Expr inp v)
  | .isNull v => out_last (wt_Expr inp v)
  | .between v l u => out_bind (wt_Expr inp v) (out_bind (wt_Expr inp l) (out_last (wt_Expr inp u)))
  | .array vs => out_last (wt_Exprs inp vs)
  | .inQuery v q => out_bind (wt_Expr inp v) (out_last (wt_Query inp q))
  | .inList v es => out_bind (wt_Expr inp v) (out_last (wt_Exprs inp es))
  | .like v p e => out_bind (wt_Expr inp v) (out_bind (wt_Expr inp p) (out_last (wt_ExprOpt inp e)))
  | .typeCtor v t => out_pure _
  | .row vs => out_last (wt_Exprs inp vs)
  | .interval v f t => out_pure _
  | .cast tr e t => out_last (wt_Expr inp e)
  | .subscript v i => out_bind (wt_Expr inp v) (out_last (wt_Expr inp i))
  | .case v bs e => out_bind (wt_ExprOpt inp v) (out_bind (wt_Whens inp bs) (out_last (wt_ExprOpt inp e)))
  | .func f as => out_last (wt_Exprs inp as)
  | .agg f as ob fl w ign => out_bind (wt_Exprs inp as) (out_bind (wt_Ords inp ob) (out_bind (wt_ExprOpt inp fl) (out_last (wt_WinOpt inp w))))
  | .listagg v sep ov ob => out_bind (wt_Expr inp v) (out_last (wt_Ords inp ob))
  | .curTime f p => out_pure _
  | .session f => out_pure _
  | .normalize v fo => out_last (wt_Expr inp v)
  | .query q => out_last (wt_Query inp q)
theorem wt_Ord (inp : List Str) : ∀ x : Ord, Outcome (walkOrd (lambdaLeaf inp) evolveTable x) (tabsOrd x) (mapOrd (bindNode inp) id x)
  | .mk v d nf => out_last (wt_Expr inp v)
theorem wt_Bound (inp : List Str) : ∀ x : Bound, Outcome (walkBound (lambdaLeaf inp) evolveTable x) (tabsBound x) (mapBound (bindNode inp) id x)
  | .bounded t e => out_last (wt_Expr inp e)
  | .unbounded t => out_pure _
  | .current => out_pure _
theorem wt_Win (inp : List Str) : ∀ x : Win, Outcome (walkWin (lambdaLeaf inp) evolveTable x) (tabsWin x) (mapWin (bindNode inp) id x)
  | .mk p ob ps f st en => out_bind (wt_Ords inp ob) (out_bind (wt_Exprs inp ps) (out_bind (wt_Bound inp st) (out_last (wt_Bound inp en))))
theorem wt_Grp (inp : List Str) : ∀ x : Grp, Outcome (walkGrp (lambdaLeaf inp) evolveTable x) (tabsGrp x) (mapGrp (bindNode inp) id x)
  | .set vs => out_last (wt_Exprs inp vs)
  | .sets gs => out_last (wt_Lists inp gs)
  | .cube vs => out_last (wt_Exprs inp vs)
  | .rollup vs => out_last (wt_Exprs inp vs)
theorem wt_GroupBy (inp : List Str) : ∀ x : GroupBy, Outcome (walkGroupBy (lambdaLeaf inp) evolveTable x) (tabsGroupBy x) (mapGroupBy (bindNode inp) id x)
  | .mk gs d => out_last (wt_Grps inp gs)
theorem wt_Query (inp : List Str) : ∀ x : Query, Outcome (walkQuery (lambdaLeaf inp) evolveTable x) (tabsQuery x) (mapQuery (bindNode inp) id x)
  | .mk b off lim ob w => out_bind (wt_QBody inp b) (out_bind (wt_Ords inp ob) (out_last (wt_Nameds inp w)))
theorem wt_QBody (inp : List Str) : ∀ x : QBody, Outcome (walkQBody (lambdaLeaf inp) evolveTable x) (tabsQBody x) (mapQBody (bindNode inp) id x)
  | .select items fr wh gb hv d wins => out_bind (wt_Exprs inp items) (out_bind (wt_RelOpt inp fr) (out_bind (wt_ExprOpt inp wh) (out_bind (wt_GroupByOpt inp gb) (out_bind (wt_ExprOpt inp hv) (out_last (wt_NamedWins inp wins))))))
  | .set k l r d => out_bind (wt_Query inp l) (out_last (wt_Query inp r))
  | .table t => out_last (out_table t)
  | .values es => out_last (wt_Exprs inp es)
theorem wt_Named (inp : List Str) : ∀ x : Named, Outcome (walkNamed (lambdaLeaf inp) evolveTable x) (tabsNamed x) (mapNamed (bindNode inp) id x)
  | .mk r a cols => out_last (wt_Rel inp r)
theorem wt_Rel (inp : List Str) : ∀ x : Rel, Outcome (walkRel (lambdaLeaf inp) evolveTable x) (tabsRel x) (mapRel (bindNode inp) id x)
  | .table t => out_last (out_table t)
  | .query q => out_last (wt_Query inp q)
  | .aliased n => out_last (wt_Named inp n)
  | .join l r t nat cr => out_bind (wt_Rel inp l) (out_bind (wt_Rel inp r) (out_last (wt_CritOpt inp cr)))
  | .unnest as ord => out_last (wt_Exprs inp as)
  | .lateral q => out_last (wt_Query inp q)
  | .sample r t p => out_bind (wt_Rel inp r) (out_last (wt_Expr inp p))
theorem wt_Crit (inp : List Str) : ∀ x : Crit, Outcome (walkCrit (lambdaLeaf inp) evolveTable x) (tabsCrit x) (mapCrit (bindNode inp) id x)
  | .using cols => out_pure _
  | .on e => out_last (wt_Expr inp e)
theorem wt_ExprOpt (inp : List Str) : ∀ x : Option Expr, Outcome (walkExprOpt (lambdaLeaf inp) evolveTable x) (tabsExprOpt x) (mapExprOpt (bindNode inp) id x)
  | none => out_pure _
  | some x => out_last (wt_Expr inp x)
theorem wt_Exprs (inp : List Str) : ∀ x : List Expr, Outcome (walkExprs (lambdaLeaf inp) evolveTable x) (tabsExprs x) (mapExprs (bindNode inp) id x)
  | [] => out_pure _
  | x :: xs => out_bind (wt_Expr inp x) (out_last (wt_Exprs inp xs))
theorem wt_Lists (inp : List Str) : ∀ x : List (List Expr), Outcome (walkLists (lambdaLeaf inp) evolveTable x) (tabsLists x) (mapLists (bindNode inp) id x)
  | [] => out_pure _
  | x :: xs => out_bind (wt_Exprs inp x) (out_last (wt_Lists inp xs))
theorem wt_Whens (inp : List Str) : ∀ x : List (Expr × Expr), Outcome (walkWhens (lambdaLeaf inp) evolveTable x) (tabsWhens x) (mapWhens (bindNode inp) id x)
  | [] => out_pure _
  | (c, v) :: xs => out_bind (wt_Expr inp c) (out_bind (wt_Expr inp v) (out_last (wt_Whens inp xs)))
theorem wt_Ords (inp : List Str) : ∀ x : List Ord, Outcome (walkOrds (lambdaLeaf inp) evolveTable x) (tabsOrds x) (mapOrds (bindNode inp) id x)
  | [] => out_pure _
  | x :: xs => out_bind (wt_Ord inp x) (out_last (wt_Ords inp xs))
theorem wt_WinOpt (inp : List Str) : ∀ x : Option Win, Outcome (walkWinOpt (lambdaLeaf inp) evolveTable x) (tabsWinOpt x) (mapWinOpt (bindNode inp) id x)
  | none => out_pure _
  | some x => out_last (wt_Win inp x)
theorem wt_Grps (inp : List Str) : ∀ x : List Grp, Outcome (walkGrps (lambdaLeaf inp) evolveTable x) (tabsGrps x) (mapGrps (bindNode inp) id x)
  | [] => out_pure _
  | x :: xs => out_bind (wt_Grp inp x) (out_last (wt_Grps inp xs))
theorem wt_GroupByOpt (inp : List Str) : ∀ x : Option GroupBy, Outcome (walkGroupByOpt (lambdaLeaf inp) evolveTable x) (tabsGroupByOpt x) (mapGroupByOpt (bindNode inp) id x)
  | none => out_pure _
  | some x => out_last (wt_GroupBy inp x)
theorem wt_NamedWins (inp : List Str) : ∀ x : List (Str × Win), Outcome (walkNamedWins (lambdaLeaf inp) evolveTable x) (tabsNamedWins x) (mapNamedWins (bindNode inp) id x)
  | [] => out_pure _
  | (n, w) :: xs => out_bind (wt_Win inp w) (out_last (wt_NamedWins inp xs))
theorem wt_Nameds (inp : List Str) : ∀ x : List Named, Outcome (walkNameds (lambdaLeaf inp) evolveTable x) (tabsNameds x) (mapNameds (bindNode inp) id x)
  | [] => out_pure _
  | x :: xs => out_bind (wt_Named inp x) (out_last (wt_Nameds inp xs))
theorem wt_RelOpt (inp : List Str) : ∀ x : Option Rel, Outcome (walkRelOpt (lambdaLeaf inp) evolveTable x) (tabsRelOpt x) (mapRelOpt (bindNode inp) id x)
  | none => out_pure _
  | some x => out_last (wt_Rel inp x)
theorem wt_CritOpt (inp : List Str) : ∀ x : Option Crit, Outcome (walkCritOpt (lambdaLeaf inp) evolveTable x) (tabsCritOpt x) (mapCritOpt (bindNode inp) id x)
  | none => out_pure _
  | some x => out_last (wt_Crit inp x)
end

end Treeno
