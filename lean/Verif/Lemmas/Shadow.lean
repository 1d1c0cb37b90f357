import Verif.Spec.TreeMap
import Verif.Spec.Columns
import Verif.Spec.Schemas
/-!
# Binding variables twice

The cases are generated; each follows from those of the parts.
-/
set_option autoImplicit false
namespace Treeno
open Spec

theorem sd_field (a b : List Str) (n : Str) (t : Ty) :
    mapExpr (bindNode a) id (bindNode b (.field n none t)) = bindNode (b ++ a) (.field n none t) := by
  by_cases hb : n ∈ b
  · have e1 : bindNode b (.field n none t) = .var n := if_pos hb
    have e2 : bindNode (b ++ a) (.field n none t) = .var n := if_pos (List.mem_append_left a hb)
    rw [e1, e2]; rfl
  · have e1 : bindNode b (.field n none t) = .field n none t := if_neg hb
    rw [e1]
    show bindNode a (.field n none t) = _
    by_cases ha : n ∈ a
    · have e1 : bindNode a (.field n none t) = .var n := if_pos ha
      have e2 : bindNode (b ++ a) (.field n none t) = .var n := if_pos (List.mem_append_right b ha)
      rw [e1, e2]
    · have e1 : bindNode a (.field n none t) = .field n none t := if_neg ha
      have e2 : bindNode (b ++ a) (.field n none t) = .field n none t := if_neg (fun h => (List.mem_append.1 h).elim hb ha)
      rw [e1, e2]

mutual
theorem sd_Expr (oa ib : List Str) : ∀ x : Expr, mapExpr (bindNode oa) id (mapExpr (bindNode ib) id x) = mapExpr (bindNode (ib ++ oa)) id x
  | .lit v t => rfl
  | .field n none t => sd_field oa ib n t
  | .field n (some _) t => rfl
  | .fieldOf n b t => by
    show (.fieldOf n (mapExpr (bindNode oa) id (mapExpr (bindNode ib) id b)) t : Expr) = .fieldOf n (mapExpr (bindNode (ib ++ oa)) id b) t
    rw [sd_Expr oa ib b]
  | .alias v n => by
    show (.alias (mapExpr (bindNode oa) id (mapExpr (bindNode ib) id v)) n : Expr) = .alias (mapExpr (bindNode (ib ++ oa)) id v) n
    rw [sd_Expr oa ib v]
  | .star tn t => rfl
  | .starOf b t => by
    show (.starOf (mapExpr (bindNode oa) id (mapExpr (bindNode ib) id b)) t : Expr) = .starOf (mapExpr (bindNode (ib ++ oa)) id b) t
    rw [sd_Expr oa ib b]
  | .aliasedStar s as => by
    show (.aliasedStar (mapExpr (bindNode oa) id (mapExpr (bindNode ib) id s)) as : Expr) = .aliasedStar (mapExpr (bindNode (ib ++ oa)) id s) as
    rw [sd_Expr oa ib s]
  | .var n => rfl
  | .lam ins b => by
    show (.lam ins (mapExpr (bindNode oa) id (mapExpr (bindNode ib) id b)) : Expr) = .lam ins (mapExpr (bindNode (ib ++ oa)) id b)
    rw [sd_Expr oa ib b]
  | .un op v => by
    show (.un op (mapExpr (bindNode oa) id (mapExpr (bindNode ib) id v)) : Expr) = .un op (mapExpr (bindNode (ib ++ oa)) id v)
    rw [sd_Expr oa ib v]
  | .bin op l r => by
    show (.bin op (mapExpr (bindNode oa) id (mapExpr (bindNode ib) id l)) (mapExpr (bindNode oa) id (mapExpr (bindNode ib) id r)) : Expr) = .bin op (mapExpr (bindNode (ib ++ oa)) id l) (mapExpr (bindNode (ib ++ oa)) id r)
    rw [sd_Expr oa ib l, sd_Expr oa ib r]
  | .not v => by
    show (.not (mapExpr (bindNode oa) id (mapExpr (bindNode ib) id v)) : Expr) = .not (mapExpr (bindNode (ib ++ oa)) id v)
    rw [sd_Expr oa ib v]
  | .isNull v => by
    show (.isNull (mapExpr (bindNode oa) id (mapExpr (bindNode ib) id v)) : Expr) = .isNull (mapExpr (bindNode (ib ++ oa)) id v)
    rw [sd_Expr oa ib v]
  | .between v l u => by
    show (.between (mapExpr (bindNode oa) id (mapExpr (bindNode ib) id v)) (mapExpr (bindNode oa) id (mapExpr (bindNode ib) id l)) (mapExpr (bindNode oa) id (mapExpr (bindNode ib) id u)) : Expr) = .between (mapExpr (bindNode (ib ++ oa)) id v) (mapExpr (bindNode (ib ++ oa)) id l) (mapExpr (bindNode (ib ++ oa)) id u)
    rw [sd_Expr oa ib v, sd_Expr oa ib l, sd_Expr oa ib u]
  | .array vs => by
    show (.array (mapExprs (bindNode oa) id (mapExprs (bindNode ib) id vs)) : Expr) = .array (mapExprs (bindNode (ib ++ oa)) id vs)
    rw [sd_Exprs oa ib vs]
  | .inQuery v q => by
    show (.inQuery (mapExpr (bindNode oa) id (mapExpr (bindNode ib) id v)) (mapQuery (bindNode oa) id (mapQuery (bindNode ib) id q)) : Expr) = .inQuery (mapExpr (bindNode (ib ++ oa)) id v) (mapQuery (bindNode (ib ++ oa)) id q)
    rw [sd_Expr oa ib v, sd_Query oa ib q]
  | .inList v es => by
    show (.inList (mapExpr (bindNode oa) id (mapExpr (bindNode ib) id v)) (mapExprs (bindNode oa) id (mapExprs (bindNode ib) id es)) : Expr) = .inList (mapExpr (bindNode (ib ++ oa)) id v) (mapExprs (bindNode (ib ++ oa)) id es)
    rw [sd_Expr oa ib v, sd_Exprs oa ib es]
  | .like v p e => by
    show (.like (mapExpr (bindNode oa) id (mapExpr (bindNode ib) id v)) (mapExpr (bindNode oa) id (mapExpr (bindNode ib) id p)) (mapExprOpt (bindNode oa) id (mapExprOpt (bindNode ib) id e)) : Expr) = .like (mapExpr (bindNode (ib ++ oa)) id v) (mapExpr (bindNode (ib ++ oa)) id p) (mapExprOpt (bindNode (ib ++ oa)) id e)
    rw [sd_Expr oa ib v, sd_Expr oa ib p, sd_ExprOpt oa ib e]
  | .typeCtor v t => rfl
  | .row vs => by
    show (.row (mapExprs (bindNode oa) id (mapExprs (bindNode ib) id vs)) : Expr) = .row (mapExprs (bindNode (ib ++ oa)) id vs)
    rw [sd_Exprs oa ib vs]
  | .interval v f t => rfl
  | .cast tr e t => by
    show (.cast tr (mapExpr (bindNode oa) id (mapExpr (bindNode ib) id e)) t : Expr) = .cast tr (mapExpr (bindNode (ib ++ oa)) id e) t
    rw [sd_Expr oa ib e]
  | .subscript v i => by
    show (.subscript (mapExpr (bindNode oa) id (mapExpr (bindNode ib) id v)) (mapExpr (bindNode oa) id (mapExpr (bindNode ib) id i)) : Expr) = .subscript (mapExpr (bindNode (ib ++ oa)) id v) (mapExpr (bindNode (ib ++ oa)) id i)
    rw [sd_Expr oa ib v, sd_Expr oa ib i]
  | .case v bs e => by
    show (.case (mapExprOpt (bindNode oa) id (mapExprOpt (bindNode ib) id v)) (mapWhens (bindNode oa) id (mapWhens (bindNode ib) id bs)) (mapExprOpt (bindNode oa) id (mapExprOpt (bindNode ib) id e)) : Expr) = .case (mapExprOpt (bindNode (ib ++ oa)) id v) (mapWhens (bindNode (ib ++ oa)) id bs) (mapExprOpt (bindNode (ib ++ oa)) id e)
    rw [sd_ExprOpt oa ib v, sd_Whens oa ib bs, sd_ExprOpt oa ib e]
  | .func f as => by
    show (.func f (mapExprs (bindNode oa) id (mapExprs (bindNode ib) id as)) : Expr) = .func f (mapExprs (bindNode (ib ++ oa)) id as)
    rw [sd_Exprs oa ib as]
  | .agg f as ob fl w ign => by
    show (.agg f (mapExprs (bindNode oa) id (mapExprs (bindNode ib) id as)) (mapOrds (bindNode oa) id (mapOrds (bindNode ib) id ob)) (mapExprOpt (bindNode oa) id (mapExprOpt (bindNode ib) id fl)) (mapWinOpt (bindNode oa) id (mapWinOpt (bindNode ib) id w)) ign : Expr) = .agg f (mapExprs (bindNode (ib ++ oa)) id as) (mapOrds (bindNode (ib ++ oa)) id ob) (mapExprOpt (bindNode (ib ++ oa)) id fl) (mapWinOpt (bindNode (ib ++ oa)) id w) ign
    rw [sd_Exprs oa ib as, sd_Ords oa ib ob, sd_ExprOpt oa ib fl, sd_WinOpt oa ib w]
  | .listagg v sep ov ob => by
    show (.listagg (mapExpr (bindNode oa) id (mapExpr (bindNode ib) id v)) sep ov (mapOrds (bindNode oa) id (mapOrds (bindNode ib) id ob)) : Expr) = .listagg (mapExpr (bindNode (ib ++ oa)) id v) sep ov (mapOrds (bindNode (ib ++ oa)) id ob)
    rw [sd_Expr oa ib v, sd_Ords oa ib ob]
  | .curTime f p => rfl
  | .session f => rfl
  | .normalize v fo => by
    show (.normalize (mapExpr (bindNode oa) id (mapExpr (bindNode ib) id v)) fo : Expr) = .normalize (mapExpr (bindNode (ib ++ oa)) id v) fo
    rw [sd_Expr oa ib v]
  | .query q => by
    show (.query (mapQuery (bindNode oa) id (mapQuery (bindNode ib) id q)) : Expr) = .query (mapQuery (bindNode (ib ++ oa)) id q)
    rw [sd_Query oa ib q]
theorem sd_Ord (oa ib : List Str) : ∀ x : Ord, mapOrd (bindNode oa) id (mapOrd (bindNode ib) id x) = mapOrd (bindNode (ib ++ oa)) id x
  | .mk v d nf => by
    show (.mk (mapExpr (bindNode oa) id (mapExpr (bindNode ib) id v)) d nf : Ord) = .mk (mapExpr (bindNode (ib ++ oa)) id v) d nf
    rw [sd_Expr oa ib v]
theorem sd_Bound (oa ib : List Str) : ∀ x : Bound, mapBound (bindNode oa) id (mapBound (bindNode ib) id x) = mapBound (bindNode (ib ++ oa)) id x
  | .bounded t e => by
    show (.bounded t (mapExpr (bindNode oa) id (mapExpr (bindNode ib) id e)) : Bound) = .bounded t (mapExpr (bindNode (ib ++ oa)) id e)
    rw [sd_Expr oa ib e]
  | .unbounded t => rfl
  | .current => rfl
theorem sd_Win (oa ib : List Str) : ∀ x : Win, mapWin (bindNode oa) id (mapWin (bindNode ib) id x) = mapWin (bindNode (ib ++ oa)) id x
  | .mk p ob ps f st en => by
    show (.mk p (mapOrds (bindNode oa) id (mapOrds (bindNode ib) id ob)) (mapExprs (bindNode oa) id (mapExprs (bindNode ib) id ps)) f (mapBound (bindNode oa) id (mapBound (bindNode ib) id st)) (mapBound (bindNode oa) id (mapBound (bindNode ib) id en)) : Win) = .mk p (mapOrds (bindNode (ib ++ oa)) id ob) (mapExprs (bindNode (ib ++ oa)) id ps) f (mapBound (bindNode (ib ++ oa)) id st) (mapBound (bindNode (ib ++ oa)) id en)
    rw [sd_Ords oa ib ob, sd_Exprs oa ib ps, sd_Bound oa ib st, sd_Bound oa ib en]
theorem sd_Grp (oa ib : List Str) : ∀ x : Grp, mapGrp (bindNode oa) id (mapGrp (bindNode ib) id x) = mapGrp (bindNode (ib ++ oa)) id x
  | .set vs => by
    show (.set (mapExprs (bindNode oa) id (mapExprs (bindNode ib) id vs)) : Grp) = .set (mapExprs (bindNode (ib ++ oa)) id vs)
    rw [sd_Exprs oa ib vs]
  | .sets gs => by
    show (.sets (mapLists (bindNode oa) id (mapLists (bindNode ib) id gs)) : Grp) = .sets (mapLists (bindNode (ib ++ oa)) id gs)
    rw [sd_Lists oa ib gs]
  | .cube vs => by
    show (.cube (mapExprs (bindNode oa) id (mapExprs (bindNode ib) id vs)) : Grp) = .cube (mapExprs (bindNode (ib ++ oa)) id vs)
    rw [sd_Exprs oa ib vs]
  | .rollup vs => by
    show (.rollup (mapExprs (bindNode oa) id (mapExprs (bindNode ib) id vs)) : Grp) = .rollup (mapExprs (bindNode (ib ++ oa)) id vs)
    rw [sd_Exprs oa ib vs]
theorem sd_GroupBy (oa ib : List Str) : ∀ x : GroupBy, mapGroupBy (bindNode oa) id (mapGroupBy (bindNode ib) id x) = mapGroupBy (bindNode (ib ++ oa)) id x
  | .mk gs d => by
    show (.mk (mapGrps (bindNode oa) id (mapGrps (bindNode ib) id gs)) d : GroupBy) = .mk (mapGrps (bindNode (ib ++ oa)) id gs) d
    rw [sd_Grps oa ib gs]
theorem sd_Query (oa ib : List Str) : ∀ x : Query, mapQuery (bindNode oa) id (mapQuery (bindNode ib) id x) = mapQuery (bindNode (ib ++ oa)) id x
  | .mk b off lim ob w => by
    show (.mk (mapQBody (bindNode oa) id (mapQBody (bindNode ib) id b)) off lim (mapOrds (bindNode oa) id (mapOrds (bindNode ib) id ob)) (mapNameds (bindNode oa) id (mapNameds (bindNode ib) id w)) : Query) = .mk (mapQBody (bindNode (ib ++ oa)) id b) off lim (mapOrds (bindNode (ib ++ oa)) id ob) (mapNameds (bindNode (ib ++ oa)) id w)
    rw [sd_QBody oa ib b, sd_Ords oa ib ob, sd_Nameds oa ib w]
theorem sd_QBody (oa ib : List Str) : ∀ x : QBody, mapQBody (bindNode oa) id (mapQBody (bindNode ib) id x) = mapQBody (bindNode (ib ++ oa)) id x
  | .select items fr wh gb hv d wins => by
    show (.select (mapExprs (bindNode oa) id (mapExprs (bindNode ib) id items)) (mapRelOpt (bindNode oa) id (mapRelOpt (bindNode ib) id fr)) (mapExprOpt (bindNode oa) id (mapExprOpt (bindNode ib) id wh)) (mapGroupByOpt (bindNode oa) id (mapGroupByOpt (bindNode ib) id gb)) (mapExprOpt (bindNode oa) id (mapExprOpt (bindNode ib) id hv)) d (mapNamedWins (bindNode oa) id (mapNamedWins (bindNode ib) id wins)) : QBody) = .select (mapExprs (bindNode (ib ++ oa)) id items) (mapRelOpt (bindNode (ib ++ oa)) id fr) (mapExprOpt (bindNode (ib ++ oa)) id wh) (mapGroupByOpt (bindNode (ib ++ oa)) id gb) (mapExprOpt (bindNode (ib ++ oa)) id hv) d (mapNamedWins (bindNode (ib ++ oa)) id wins)
    rw [sd_Exprs oa ib items, sd_RelOpt oa ib fr, sd_ExprOpt oa ib wh, sd_GroupByOpt oa ib gb, sd_ExprOpt oa ib hv, sd_NamedWins oa ib wins]
  | .set k l r d => by
    show (.set k (mapQuery (bindNode oa) id (mapQuery (bindNode ib) id l)) (mapQuery (bindNode oa) id (mapQuery (bindNode ib) id r)) d : QBody) = .set k (mapQuery (bindNode (ib ++ oa)) id l) (mapQuery (bindNode (ib ++ oa)) id r) d
    rw [sd_Query oa ib l, sd_Query oa ib r]
  | .table t => rfl
  | .values es => by
    show (.values (mapExprs (bindNode oa) id (mapExprs (bindNode ib) id es)) : QBody) = .values (mapExprs (bindNode (ib ++ oa)) id es)
    rw [sd_Exprs oa ib es]
theorem sd_Named (oa ib : List Str) : ∀ x : Named, mapNamed (bindNode oa) id (mapNamed (bindNode ib) id x) = mapNamed (bindNode (ib ++ oa)) id x
  | .mk r a cols => by
    show (.mk (mapRel (bindNode oa) id (mapRel (bindNode ib) id r)) a cols : Named) = .mk (mapRel (bindNode (ib ++ oa)) id r) a cols
    rw [sd_Rel oa ib r]
theorem sd_Rel (oa ib : List Str) : ∀ x : Rel, mapRel (bindNode oa) id (mapRel (bindNode ib) id x) = mapRel (bindNode (ib ++ oa)) id x
  | .table t => rfl
  | .query q => by
    show (.query (mapQuery (bindNode oa) id (mapQuery (bindNode ib) id q)) : Rel) = .query (mapQuery (bindNode (ib ++ oa)) id q)
    rw [sd_Query oa ib q]
  | .aliased n => by
    show (.aliased (mapNamed (bindNode oa) id (mapNamed (bindNode ib) id n)) : Rel) = .aliased (mapNamed (bindNode (ib ++ oa)) id n)
    rw [sd_Named oa ib n]
  | .join l r t nat cr => by
    show (.join (mapRel (bindNode oa) id (mapRel (bindNode ib) id l)) (mapRel (bindNode oa) id (mapRel (bindNode ib) id r)) t nat (mapCritOpt (bindNode oa) id (mapCritOpt (bindNode ib) id cr)) : Rel) = .join (mapRel (bindNode (ib ++ oa)) id l) (mapRel (bindNode (ib ++ oa)) id r) t nat (mapCritOpt (bindNode (ib ++ oa)) id cr)
    rw [sd_Rel oa ib l, sd_Rel oa ib r, sd_CritOpt oa ib cr]
  | .unnest as ord => by
    show (.unnest (mapExprs (bindNode oa) id (mapExprs (bindNode ib) id as)) ord : Rel) = .unnest (mapExprs (bindNode (ib ++ oa)) id as) ord
    rw [sd_Exprs oa ib as]
  | .lateral q => by
    show (.lateral (mapQuery (bindNode oa) id (mapQuery (bindNode ib) id q)) : Rel) = .lateral (mapQuery (bindNode (ib ++ oa)) id q)
    rw [sd_Query oa ib q]
  | .sample r t p => by
    show (.sample (mapRel (bindNode oa) id (mapRel (bindNode ib) id r)) t (mapExpr (bindNode oa) id (mapExpr (bindNode ib) id p)) : Rel) = .sample (mapRel (bindNode (ib ++ oa)) id r) t (mapExpr (bindNode (ib ++ oa)) id p)
    rw [sd_Rel oa ib r, sd_Expr oa ib p]
theorem sd_Crit (oa ib : List Str) : ∀ x : Crit, mapCrit (bindNode oa) id (mapCrit (bindNode ib) id x) = mapCrit (bindNode (ib ++ oa)) id x
  | .using cols => rfl
  | .on e => by
    show (.on (mapExpr (bindNode oa) id (mapExpr (bindNode ib) id e)) : Crit) = .on (mapExpr (bindNode (ib ++ oa)) id e)
    rw [sd_Expr oa ib e]
theorem sd_ExprOpt (oa ib : List Str) : ∀ x : Option Expr, mapExprOpt (bindNode oa) id (mapExprOpt (bindNode ib) id x) = mapExprOpt (bindNode (ib ++ oa)) id x
  | none => rfl
  | some x => by
    show some (mapExpr (bindNode oa) id (mapExpr (bindNode ib) id x)) = some (mapExpr (bindNode (ib ++ oa)) id x)
    rw [sd_Expr oa ib x]
theorem sd_Exprs (oa ib : List Str) : ∀ x : List Expr, mapExprs (bindNode oa) id (mapExprs (bindNode ib) id x) = mapExprs (bindNode (ib ++ oa)) id x
  | [] => rfl
  | x :: xs => by
    show (mapExpr (bindNode oa) id (mapExpr (bindNode ib) id x)) :: (mapExprs (bindNode oa) id (mapExprs (bindNode ib) id xs)) = (mapExpr (bindNode (ib ++ oa)) id x) :: (mapExprs (bindNode (ib ++ oa)) id xs)
    rw [sd_Expr oa ib x, sd_Exprs oa ib xs]
theorem sd_Lists (oa ib : List Str) : ∀ x : List (List Expr), mapLists (bindNode oa) id (mapLists (bindNode ib) id x) = mapLists (bindNode (ib ++ oa)) id x
  | [] => rfl
  | x :: xs => by
    show (mapExprs (bindNode oa) id (mapExprs (bindNode ib) id x)) :: (mapLists (bindNode oa) id (mapLists (bindNode ib) id xs)) = (mapExprs (bindNode (ib ++ oa)) id x) :: (mapLists (bindNode (ib ++ oa)) id xs)
    rw [sd_Exprs oa ib x, sd_Lists oa ib xs]
theorem sd_Whens (oa ib : List Str) : ∀ x : List (Expr × Expr), mapWhens (bindNode oa) id (mapWhens (bindNode ib) id x) = mapWhens (bindNode (ib ++ oa)) id x
  | [] => rfl
  | (c, v) :: xs => by
    show ((mapExpr (bindNode oa) id (mapExpr (bindNode ib) id c)), (mapExpr (bindNode oa) id (mapExpr (bindNode ib) id v))) :: (mapWhens (bindNode oa) id (mapWhens (bindNode ib) id xs)) = ((mapExpr (bindNode (ib ++ oa)) id c), (mapExpr (bindNode (ib ++ oa)) id v)) :: (mapWhens (bindNode (ib ++ oa)) id xs)
    rw [sd_Expr oa ib c, sd_Expr oa ib v, sd_Whens oa ib xs]
theorem sd_Ords (oa ib : List Str) : ∀ x : List Ord, mapOrds (bindNode oa) id (mapOrds (bindNode ib) id x) = mapOrds (bindNode (ib ++ oa)) id x
  | [] => rfl
  | x :: xs => by
    show (mapOrd (bindNode oa) id (mapOrd (bindNode ib) id x)) :: (mapOrds (bindNode oa) id (mapOrds (bindNode ib) id xs)) = (mapOrd (bindNode (ib ++ oa)) id x) :: (mapOrds (bindNode (ib ++ oa)) id xs)
    rw [sd_Ord oa ib x, sd_Ords oa ib xs]
theorem sd_WinOpt (oa ib : List Str) : ∀ x : Option Win, mapWinOpt (bindNode oa) id (mapWinOpt (bindNode ib) id x) = mapWinOpt (bindNode (ib ++ oa)) id x
  | none => rfl
  | some x => by
    show some (mapWin (bindNode oa) id (mapWin (bindNode ib) id x)) = some (mapWin (bindNode (ib ++ oa)) id x)
    rw [sd_Win oa ib x]
theorem sd_Grps (oa ib : List Str) : ∀ x : List Grp, mapGrps (bindNode oa) id (mapGrps (bindNode ib) id x) = mapGrps (bindNode (ib ++ oa)) id x
  | [] => rfl
  | x :: xs => by
    show (mapGrp (bindNode oa) id (mapGrp (bindNode ib) id x)) :: (mapGrps (bindNode oa) id (mapGrps (bindNode ib) id xs)) = (mapGrp (bindNode (ib ++ oa)) id x) :: (mapGrps (bindNode (ib ++ oa)) id xs)
    rw [sd_Grp oa ib x, sd_Grps oa ib xs]
theorem sd_GroupByOpt (oa ib : List Str) : ∀ x : Option GroupBy, mapGroupByOpt (bindNode oa) id (mapGroupByOpt (bindNode ib) id x) = mapGroupByOpt (bindNode (ib ++ oa)) id x
  | none => rfl
  | some x => by
    show some (mapGroupBy (bindNode oa) id (mapGroupBy (bindNode ib) id x)) = some (mapGroupBy (bindNode (ib ++ oa)) id x)
    rw [sd_GroupBy oa ib x]
theorem sd_NamedWins (oa ib : List Str) : ∀ x : List (Str × Win), mapNamedWins (bindNode oa) id (mapNamedWins (bindNode ib) id x) = mapNamedWins (bindNode (ib ++ oa)) id x
  | [] => rfl
  | (n, w) :: xs => by
    show (n, (mapWin (bindNode oa) id (mapWin (bindNode ib) id w))) :: (mapNamedWins (bindNode oa) id (mapNamedWins (bindNode ib) id xs)) = (n, (mapWin (bindNode (ib ++ oa)) id w)) :: (mapNamedWins (bindNode (ib ++ oa)) id xs)
    rw [sd_Win oa ib w, sd_NamedWins oa ib xs]
theorem sd_Nameds (oa ib : List Str) : ∀ x : List Named, mapNameds (bindNode oa) id (mapNameds (bindNode ib) id x) = mapNameds (bindNode (ib ++ oa)) id x
  | [] => rfl
  | x :: xs => by
    show (mapNamed (bindNode oa) id (mapNamed (bindNode ib) id x)) :: (mapNameds (bindNode oa) id (mapNameds (bindNode ib) id xs)) = (mapNamed (bindNode (ib ++ oa)) id x) :: (mapNameds (bindNode (ib ++ oa)) id xs)
    rw [sd_Named oa ib x, sd_Nameds oa ib xs]
theorem sd_RelOpt (oa ib : List Str) : ∀ x : Option Rel, mapRelOpt (bindNode oa) id (mapRelOpt (bindNode ib) id x) = mapRelOpt (bindNode (ib ++ oa)) id x
  | none => rfl
  | some x => by
    show some (mapRel (bindNode oa) id (mapRel (bindNode ib) id x)) = some (mapRel (bindNode (ib ++ oa)) id x)
    rw [sd_Rel oa ib x]
theorem sd_CritOpt (oa ib : List Str) : ∀ x : Option Crit, mapCritOpt (bindNode oa) id (mapCritOpt (bindNode ib) id x) = mapCritOpt (bindNode (ib ++ oa)) id x
  | none => rfl
  | some x => by
    show some (mapCrit (bindNode oa) id (mapCrit (bindNode ib) id x)) = some (mapCrit (bindNode (ib ++ oa)) id x)
    rw [sd_Crit oa ib x]
end

/-- None of the columns is unqualified and named like an input. -/
def Unbound (b : List Str) (cs : List Column) : Prop := ∀ c ∈ cs, c.table = none → c.name ∉ b

theorem unbound_nil (b : List Str) : Unbound b [] := fun _ h => nomatch h
theorem unbound_append {b : List Str} {xs ys : List Column} (hx : Unbound b xs) (hy : Unbound b ys) : Unbound b (xs ++ ys) :=
  fun c hc => (List.mem_append.1 hc).elim (hx c) (hy c)
theorem nc_field (b : List Str) (n : Str) (t : Ty) : Unbound b (colsExpr (bindNode b (.field n none t))) := by
  by_cases hb : n ∈ b
  · have e1 : bindNode b (.field n none t) = .var n := if_pos hb
    rw [e1]; exact unbound_nil b
  · have e1 : bindNode b (.field n none t) = .field n none t := if_neg hb
    rw [e1]
    intro c hc _
    cases List.mem_singleton.1 hc
    exact hb

mutual
theorem nc_Expr (ib : List Str) : ∀ x : Expr, Unbound ib (colsExpr (mapExpr (bindNode ib) id x))
  | .lit v t => unbound_nil ib
  | .field n none t => nc_field ib n t
  | .field n (some _) t => fun c hc hn _ => by cases List.mem_singleton.1 hc; exact nomatch hn
  | .fieldOf n b t => unbound_nil ib
  | .alias v n => nc_Expr ib v
  | .star tn t => unbound_nil ib
  | .starOf b t => unbound_nil ib
  | .aliasedStar s as => nc_Expr ib s
  | .var n => unbound_nil ib
  | .lam ins b => nc_Expr ib b
  | .un op v => nc_Expr ib v
  | .bin op l r => unbound_append (nc_Expr ib l) (nc_Expr ib r)
  | .not v => nc_Expr ib v
  | .isNull v => nc_Expr ib v
  | .between v l u => unbound_append (unbound_append (nc_Expr ib v) (nc_Expr ib l)) (nc_Expr ib u)
  | .array vs => nc_Exprs ib vs
  | .inQuery v q => unbound_append (nc_Expr ib v) (nc_Query ib q)
  | .inList v es => unbound_append (nc_Expr ib v) (nc_Exprs ib es)
  | .like v p e => unbound_append (unbound_append (nc_Expr ib v) (nc_Expr ib p)) (nc_ExprOpt ib e)
  | .typeCtor v t => unbound_nil ib
  | .row vs => nc_Exprs ib vs
  | .interval v f t => unbound_nil ib
  | .cast tr e t => nc_Expr ib e
  | .subscript v i => unbound_append (nc_Expr ib v) (nc_Expr ib i)
  | .case v bs e => unbound_append (unbound_append (nc_ExprOpt ib v) (nc_Whens ib bs)) (nc_ExprOpt ib e)
  | .func f as => nc_Exprs ib as
  | .agg f as ob fl w ign => unbound_append (unbound_append (unbound_append (nc_Exprs ib as) (nc_Ords ib ob)) (nc_ExprOpt ib fl)) (nc_WinOpt ib w)
  | .listagg v sep ov ob => unbound_append (nc_Expr ib v) (nc_Ords ib ob)
  | .curTime f p => unbound_nil ib
  | .session f => unbound_nil ib
  | .normalize v fo => nc_Expr ib v
  | .query q => nc_Query ib q
theorem nc_Ord (ib : List Str) : ∀ x : Ord, Unbound ib (colsOrd (mapOrd (bindNode ib) id x))
  | .mk v d nf => nc_Expr ib v
theorem nc_Bound (ib : List Str) : ∀ x : Bound, Unbound ib (colsBound (mapBound (bindNode ib) id x))
  | .bounded t e => nc_Expr ib e
  | .unbounded t => unbound_nil ib
  | .current => unbound_nil ib
theorem nc_Win (ib : List Str) : ∀ x : Win, Unbound ib (colsWin (mapWin (bindNode ib) id x))
  | .mk p ob ps f st en => unbound_append (unbound_append (unbound_append (nc_Ords ib ob) (nc_Exprs ib ps)) (nc_Bound ib st)) (nc_Bound ib en)
theorem nc_Grp (ib : List Str) : ∀ x : Grp, Unbound ib (colsGrp (mapGrp (bindNode ib) id x))
  | .set vs => nc_Exprs ib vs
  | .sets gs => nc_Lists ib gs
  | .cube vs => nc_Exprs ib vs
  | .rollup vs => nc_Exprs ib vs
theorem nc_GroupBy (ib : List Str) : ∀ x : GroupBy, Unbound ib (colsGroupBy (mapGroupBy (bindNode ib) id x))
  | .mk gs d => nc_Grps ib gs
theorem nc_Query (ib : List Str) : ∀ x : Query, Unbound ib (colsQuery (mapQuery (bindNode ib) id x))
  | .mk b off lim ob w => unbound_append (unbound_append (nc_QBody ib b) (nc_Ords ib ob)) (nc_Nameds ib w)
theorem nc_QBody (ib : List Str) : ∀ x : QBody, Unbound ib (colsQBody (mapQBody (bindNode ib) id x))
  | .select items fr wh gb hv d wins => unbound_append (unbound_append (unbound_append (unbound_append (unbound_append (nc_Exprs ib items) (nc_RelOpt ib fr)) (nc_ExprOpt ib wh)) (nc_GroupByOpt ib gb)) (nc_ExprOpt ib hv)) (nc_NamedWins ib wins)
  | .set k l r d => unbound_append (nc_Query ib l) (nc_Query ib r)
  | .table t => unbound_nil ib
  | .values es => nc_Exprs ib es
theorem nc_Named (ib : List Str) : ∀ x : Named, Unbound ib (colsNamed (mapNamed (bindNode ib) id x))
  | .mk r a cols => nc_Rel ib r
theorem nc_Rel (ib : List Str) : ∀ x : Rel, Unbound ib (colsRel (mapRel (bindNode ib) id x))
  | .table t => unbound_nil ib
  | .query q => nc_Query ib q
  | .aliased n => nc_Named ib n
  | .join l r t nat cr => unbound_append (unbound_append (nc_Rel ib l) (nc_Rel ib r)) (nc_CritOpt ib cr)
  | .unnest as ord => nc_Exprs ib as
  | .lateral q => nc_Query ib q
  | .sample r t p => unbound_append (nc_Rel ib r) (nc_Expr ib p)
theorem nc_Crit (ib : List Str) : ∀ x : Crit, Unbound ib (colsCrit (mapCrit (bindNode ib) id x))
  | .using cols => unbound_nil ib
  | .on e => nc_Expr ib e
theorem nc_ExprOpt (ib : List Str) : ∀ x : Option Expr, Unbound ib (colsExprOpt (mapExprOpt (bindNode ib) id x))
  | none => unbound_nil ib
  | some x => nc_Expr ib x
theorem nc_Exprs (ib : List Str) : ∀ x : List Expr, Unbound ib (colsExprs (mapExprs (bindNode ib) id x))
  | [] => unbound_nil ib
  | x :: xs => unbound_append (nc_Expr ib x) (nc_Exprs ib xs)
theorem nc_Lists (ib : List Str) : ∀ x : List (List Expr), Unbound ib (colsLists (mapLists (bindNode ib) id x))
  | [] => unbound_nil ib
  | x :: xs => unbound_append (nc_Exprs ib x) (nc_Lists ib xs)
theorem nc_Whens (ib : List Str) : ∀ x : List (Expr × Expr), Unbound ib (colsWhens (mapWhens (bindNode ib) id x))
  | [] => unbound_nil ib
  | (c, v) :: xs => unbound_append (unbound_append (nc_Expr ib c) (nc_Expr ib v)) (nc_Whens ib xs)
theorem nc_Ords (ib : List Str) : ∀ x : List Ord, Unbound ib (colsOrds (mapOrds (bindNode ib) id x))
  | [] => unbound_nil ib
  | x :: xs => unbound_append (nc_Ord ib x) (nc_Ords ib xs)
theorem nc_WinOpt (ib : List Str) : ∀ x : Option Win, Unbound ib (colsWinOpt (mapWinOpt (bindNode ib) id x))
  | none => unbound_nil ib
  | some x => nc_Win ib x
theorem nc_Grps (ib : List Str) : ∀ x : List Grp, Unbound ib (colsGrps (mapGrps (bindNode ib) id x))
  | [] => unbound_nil ib
  | x :: xs => unbound_append (nc_Grp ib x) (nc_Grps ib xs)
theorem nc_GroupByOpt (ib : List Str) : ∀ x : Option GroupBy, Unbound ib (colsGroupByOpt (mapGroupByOpt (bindNode ib) id x))
  | none => unbound_nil ib
  | some x => nc_GroupBy ib x
theorem nc_NamedWins (ib : List Str) : ∀ x : List (Str × Win), Unbound ib (colsNamedWins (mapNamedWins (bindNode ib) id x))
  | [] => unbound_nil ib
  | (_, w) :: xs => unbound_append (nc_Win ib w) (nc_NamedWins ib xs)
theorem nc_Nameds (ib : List Str) : ∀ x : List Named, Unbound ib (colsNameds (mapNameds (bindNode ib) id x))
  | [] => unbound_nil ib
  | x :: xs => unbound_append (nc_Named ib x) (nc_Nameds ib xs)
theorem nc_RelOpt (ib : List Str) : ∀ x : Option Rel, Unbound ib (colsRelOpt (mapRelOpt (bindNode ib) id x))
  | none => unbound_nil ib
  | some x => nc_Rel ib x
theorem nc_CritOpt (ib : List Str) : ∀ x : Option Crit, Unbound ib (colsCritOpt (mapCritOpt (bindNode ib) id x))
  | none => unbound_nil ib
  | some x => nc_Crit ib x
end

end Treeno
