import Verif.Lemmas.WalkEqs
import Verif.Lemmas.TypeText
import Verif.Spec.TreeMap
import Verif.Spec.Columns
import Verif.Spec.QueryText
/-!
# Facts about the generic traversal, for any replacement function

Changing no node changes nothing.  One statement per tree type; the proofs follow the definition of `walkExpr` arm by arm.
-/
set_option linter.unusedVariables false
set_option maxHeartbeats 1600000
namespace Treeno
open Spec

mutual
theorem mapIdExpr : ∀ (x : Expr), mapExpr id id x = x
  | .lit v t => by
    rfl
  | .field n tn t => by
    rfl
  | .fieldOf n b t => by
    show (.fieldOf n (mapExpr id id b) t : Expr) = _
    rw [mapIdExpr b]
  | .alias v n => by
    show (.alias (mapExpr id id v) n : Expr) = _
    rw [mapIdExpr v]
  | .star tn t => by
    rfl
  | .starOf b t => by
    show (.starOf (mapExpr id id b) t : Expr) = _
    rw [mapIdExpr b]
  | .aliasedStar s as => by
    show (.aliasedStar (mapExpr id id s) as : Expr) = _
    rw [mapIdExpr s]
  | .var n => by
    rfl
  | .lam ins b => by
    show (.lam ins (mapExpr id id b) : Expr) = _
    rw [mapIdExpr b]
  | .un op v => by
    show (.un op (mapExpr id id v) : Expr) = _
    rw [mapIdExpr v]
  | .bin op l r => by
    show (.bin op (mapExpr id id l) (mapExpr id id r) : Expr) = _
    rw [mapIdExpr l, mapIdExpr r]
  | .not v => by
    show (.not (mapExpr id id v) : Expr) = _
    rw [mapIdExpr v]
  | .isNull v => by
    show (.isNull (mapExpr id id v) : Expr) = _
    rw [mapIdExpr v]
  | .between v l u => by
    show (.between (mapExpr id id v) (mapExpr id id l) (mapExpr id id u) : Expr) = _
    rw [mapIdExpr v, mapIdExpr l, mapIdExpr u]
  | .array vs => by
    show (.array (mapExprs id id vs) : Expr) = _
    rw [mapIdExprs vs]
  | .inQuery v q => by
    show (.inQuery (mapExpr id id v) (mapQuery id id q) : Expr) = _
    rw [mapIdExpr v, mapIdQuery q]
  | .inList v es => by
    show (.inList (mapExpr id id v) (mapExprs id id es) : Expr) = _
    rw [mapIdExpr v, mapIdExprs es]
  | .like v p e => by
    show (.like (mapExpr id id v) (mapExpr id id p) (mapExprOpt id id e) : Expr) = _
    rw [mapIdExpr v, mapIdExpr p, mapIdExprOpt e]
  | .typeCtor v t => by
    rfl
  | .row vs => by
    show (.row (mapExprs id id vs) : Expr) = _
    rw [mapIdExprs vs]
  | .interval v f t => by
    rfl
  | .cast tr e t => by
    show (.cast tr (mapExpr id id e) t : Expr) = _
    rw [mapIdExpr e]
  | .subscript v i => by
    show (.subscript (mapExpr id id v) (mapExpr id id i) : Expr) = _
    rw [mapIdExpr v, mapIdExpr i]
  | .case v bs e => by
    show (.case (mapExprOpt id id v) (mapWhens id id bs) (mapExprOpt id id e) : Expr) = _
    rw [mapIdExprOpt v, mapIdWhens bs, mapIdExprOpt e]
  | .func f as => by
    show (.func f (mapExprs id id as) : Expr) = _
    rw [mapIdExprs as]
  | .agg f as ob fl w ign => by
    show (.agg f (mapExprs id id as) (mapOrds id id ob) (mapExprOpt id id fl) (mapWinOpt id id w) ign : Expr) = _
    rw [mapIdExprs as, mapIdOrds ob, mapIdExprOpt fl, mapIdWinOpt w]
  | .listagg v sep ov ob => by
    show (.listagg (mapExpr id id v) sep ov (mapOrds id id ob) : Expr) = _
    rw [mapIdExpr v, mapIdOrds ob]
  | .curTime f p => by
    rfl
  | .session f => by
    rfl
  | .normalize v fo => by
    show (.normalize (mapExpr id id v) fo : Expr) = _
    rw [mapIdExpr v]
  | .query q => by
    show (.query (mapQuery id id q) : Expr) = _
    rw [mapIdQuery q]
theorem mapIdOrd : ∀ (x : Ord), mapOrd id id x = x
  | .mk v d nf => by
    show (.mk (mapExpr id id v) d nf : Ord) = _
    rw [mapIdExpr v]
theorem mapIdBound : ∀ (x : Bound), mapBound id id x = x
  | .bounded t e => by
    show (.bounded t (mapExpr id id e) : Bound) = _
    rw [mapIdExpr e]
  | .unbounded t => by
    rfl
  | .current => by
    rfl
theorem mapIdWin : ∀ (x : Win), mapWin id id x = x
  | .mk p ob ps f st en => by
    show (.mk p (mapOrds id id ob) (mapExprs id id ps) f (mapBound id id st) (mapBound id id en) : Win) = _
    rw [mapIdOrds ob, mapIdExprs ps, mapIdBound st, mapIdBound en]
theorem mapIdGrp : ∀ (x : Grp), mapGrp id id x = x
  | .set vs => by
    show (.set (mapExprs id id vs) : Grp) = _
    rw [mapIdExprs vs]
  | .sets gs => by
    show (.sets (mapLists id id gs) : Grp) = _
    rw [mapIdLists gs]
  | .cube vs => by
    show (.cube (mapExprs id id vs) : Grp) = _
    rw [mapIdExprs vs]
  | .rollup vs => by
    show (.rollup (mapExprs id id vs) : Grp) = _
    rw [mapIdExprs vs]
theorem mapIdGroupBy : ∀ (x : GroupBy), mapGroupBy id id x = x
  | .mk gs d => by
    show (.mk (mapGrps id id gs) d : GroupBy) = _
    rw [mapIdGrps gs]
theorem mapIdQuery : ∀ (x : Query), mapQuery id id x = x
  | .mk b off lim ob w => by
    show (.mk (mapQBody id id b) off lim (mapOrds id id ob) (mapNameds id id w) : Query) = _
    rw [mapIdQBody b, mapIdOrds ob, mapIdNameds w]
theorem mapIdQBody : ∀ (x : QBody), mapQBody id id x = x
  | .select items fr wh gb hv d wins => by
    show (.select (mapExprs id id items) (mapRelOpt id id fr) (mapExprOpt id id wh) (mapGroupByOpt id id gb) (mapExprOpt id id hv) d (mapNamedWins id id wins) : QBody) = _
    rw [mapIdExprs items, mapIdRelOpt fr, mapIdExprOpt wh, mapIdGroupByOpt gb, mapIdExprOpt hv, mapIdNamedWins wins]
  | .set k l r d => by
    show (.set k (mapQuery id id l) (mapQuery id id r) d : QBody) = _
    rw [mapIdQuery l, mapIdQuery r]
  | .table t => by
    rfl
  | .values es => by
    show (.values (mapExprs id id es) : QBody) = _
    rw [mapIdExprs es]
theorem mapIdNamed : ∀ (x : Named), mapNamed id id x = x
  | .mk r a cols => by
    show (.mk (mapRel id id r) a cols : Named) = _
    rw [mapIdRel r]
theorem mapIdRel : ∀ (x : Rel), mapRel id id x = x
  | .table t => by
    rfl
  | .query q => by
    show (.query (mapQuery id id q) : Rel) = _
    rw [mapIdQuery q]
  | .aliased n => by
    show (.aliased (mapNamed id id n) : Rel) = _
    rw [mapIdNamed n]
  | .join l r t nat cr => by
    show (.join (mapRel id id l) (mapRel id id r) t nat (mapCritOpt id id cr) : Rel) = _
    rw [mapIdRel l, mapIdRel r, mapIdCritOpt cr]
  | .unnest as ord => by
    show (.unnest (mapExprs id id as) ord : Rel) = _
    rw [mapIdExprs as]
  | .lateral q => by
    show (.lateral (mapQuery id id q) : Rel) = _
    rw [mapIdQuery q]
  | .sample r t p => by
    show (.sample (mapRel id id r) t (mapExpr id id p) : Rel) = _
    rw [mapIdRel r, mapIdExpr p]
theorem mapIdCrit : ∀ (x : Crit), mapCrit id id x = x
  | .using cols => by
    rfl
  | .on e => by
    show (.on (mapExpr id id e) : Crit) = _
    rw [mapIdExpr e]
theorem mapIdExprOpt : ∀ (x : Option Expr), mapExprOpt id id x = x
  | none => rfl
  | some x => by
    show some (mapExpr id id x) = _
    rw [mapIdExpr x]
theorem mapIdExprs : ∀ (x : List Expr), mapExprs id id x = x
  | [] => rfl
  | x :: xs => by
    show mapExpr id id x :: mapExprs id id xs = _
    rw [mapIdExpr x, mapIdExprs xs]
theorem mapIdLists : ∀ (x : List (List Expr)), mapLists id id x = x
  | [] => rfl
  | x :: xs => by
    show mapExprs id id x :: mapLists id id xs = _
    rw [mapIdExprs x, mapIdLists xs]
theorem mapIdWhens : ∀ (x : List (Expr × Expr)), mapWhens id id x = x
  | [] => rfl
  | (c, v) :: xs => by
    show (mapExpr id id c, mapExpr id id v) :: mapWhens id id xs = _
    rw [mapIdExpr c, mapIdExpr v, mapIdWhens xs]
theorem mapIdOrds : ∀ (x : List Ord), mapOrds id id x = x
  | [] => rfl
  | x :: xs => by
    show mapOrd id id x :: mapOrds id id xs = _
    rw [mapIdOrd x, mapIdOrds xs]
theorem mapIdWinOpt : ∀ (x : Option Win), mapWinOpt id id x = x
  | none => rfl
  | some x => by
    show some (mapWin id id x) = _
    rw [mapIdWin x]
theorem mapIdGrps : ∀ (x : List Grp), mapGrps id id x = x
  | [] => rfl
  | x :: xs => by
    show mapGrp id id x :: mapGrps id id xs = _
    rw [mapIdGrp x, mapIdGrps xs]
theorem mapIdGroupByOpt : ∀ (x : Option GroupBy), mapGroupByOpt id id x = x
  | none => rfl
  | some x => by
    show some (mapGroupBy id id x) = _
    rw [mapIdGroupBy x]
theorem mapIdNamedWins : ∀ (x : List (Str × Win)), mapNamedWins id id x = x
  | [] => rfl
  | (n, w) :: xs => by
    show (n, mapWin id id w) :: mapNamedWins id id xs = _
    rw [mapIdWin w, mapIdNamedWins xs]
theorem mapIdNameds : ∀ (x : List Named), mapNameds id id x = x
  | [] => rfl
  | x :: xs => by
    show mapNamed id id x :: mapNameds id id xs = _
    rw [mapIdNamed x, mapIdNameds xs]
theorem mapIdRelOpt : ∀ (x : Option Rel), mapRelOpt id id x = x
  | none => rfl
  | some x => by
    show some (mapRel id id x) = _
    rw [mapIdRel x]
theorem mapIdCritOpt : ∀ (x : Option Crit), mapCritOpt id id x = x
  | none => rfl
  | some x => by
    show some (mapCrit id id x) = _
    rw [mapIdCrit x]
end

end Treeno
