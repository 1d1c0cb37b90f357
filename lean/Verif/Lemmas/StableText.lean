import Verif.Lemmas.StableEqs
import Verif.Lemmas.RereadEqs
import Verif.Lemmas.SqlEqs
import Verif.Lemmas.RereadMean
import Verif.Lemmas.MapId
/-!
# The text of the tree that one gets back
-/
set_option linter.unusedVariables false
namespace Treeno
open Spec

section
variable {xo xi : List Str}

theorem bb_field (n : Str) (tn : Option Str) (t : Ty) : mapExpr (bindNode xo) id (mapExpr (bindNode xi) id (.field n tn t)) =
    mapExpr (bindNode (xi ++ xo)) id (.field n tn t) := by
  cases tn with
  | some m => rfl
  | none =>
    show mapExpr (bindNode xo) id (if n ∈ xi then .var n else .field n none t) = if n ∈ xi ++ xo then .var n else .field n none t
    by_cases h : n ∈ xi
    · rw [if_pos h, if_pos (List.mem_append_left _ h)]; rfl
    · rw [if_neg h]
      show (if n ∈ xo then Expr.var n else .field n none t) = _
      by_cases h2 : n ∈ xo
      · rw [if_pos h2, if_pos (List.mem_append_right _ h2)]
      · rw [if_neg h2, if_neg (fun h3 => (List.mem_append.mp h3).elim h h2)]

mutual
theorem bb_Expr : ∀ (x : Expr), mapExpr (bindNode xo) id (mapExpr (bindNode xi) id x) = mapExpr (bindNode (xi ++ xo)) id x
  | .lit v t => rfl
  | .field n tn t => bb_field n tn t
  | .fieldOf n b t => by
    show (.fieldOf n (mapExpr (bindNode xo) id (mapExpr (bindNode xi) id b)) t : Expr) = .fieldOf n (mapExpr (bindNode (xi ++ xo)) id b) t
    rw [bb_Expr b]
  | .alias v n => by
    show (.alias (mapExpr (bindNode xo) id (mapExpr (bindNode xi) id v)) n : Expr) = .alias (mapExpr (bindNode (xi ++ xo)) id v) n
    rw [bb_Expr v]
  | .star tn t => rfl
  | .starOf b t => by
    show (.starOf (mapExpr (bindNode xo) id (mapExpr (bindNode xi) id b)) t : Expr) = .starOf (mapExpr (bindNode (xi ++ xo)) id b) t
    rw [bb_Expr b]
  | .aliasedStar s as => by
    show (.aliasedStar (mapExpr (bindNode xo) id (mapExpr (bindNode xi) id s)) as : Expr) = .aliasedStar (mapExpr (bindNode (xi ++ xo)) id s) as
    rw [bb_Expr s]
  | .var n => rfl
  | .lam ins b => by
    show (.lam ins (mapExpr (bindNode xo) id (mapExpr (bindNode xi) id b)) : Expr) = .lam ins (mapExpr (bindNode (xi ++ xo)) id b)
    rw [bb_Expr b]
  | .un op v => by
    show (.un op (mapExpr (bindNode xo) id (mapExpr (bindNode xi) id v)) : Expr) = .un op (mapExpr (bindNode (xi ++ xo)) id v)
    rw [bb_Expr v]
  | .bin op l r => by
    show (.bin op (mapExpr (bindNode xo) id (mapExpr (bindNode xi) id l)) (mapExpr (bindNode xo) id (mapExpr (bindNode xi) id r)) : Expr) = .bin op (mapExpr (bindNode (xi ++ xo)) id l) (mapExpr (bindNode (xi ++ xo)) id r)
    rw [bb_Expr l, bb_Expr r]
  | .not v => by
    show (.not (mapExpr (bindNode xo) id (mapExpr (bindNode xi) id v)) : Expr) = .not (mapExpr (bindNode (xi ++ xo)) id v)
    rw [bb_Expr v]
  | .isNull v => by
    show (.isNull (mapExpr (bindNode xo) id (mapExpr (bindNode xi) id v)) : Expr) = .isNull (mapExpr (bindNode (xi ++ xo)) id v)
    rw [bb_Expr v]
  | .between v l u => by
    show (.between (mapExpr (bindNode xo) id (mapExpr (bindNode xi) id v)) (mapExpr (bindNode xo) id (mapExpr (bindNode xi) id l)) (mapExpr (bindNode xo) id (mapExpr (bindNode xi) id u)) : Expr) = .between (mapExpr (bindNode (xi ++ xo)) id v) (mapExpr (bindNode (xi ++ xo)) id l) (mapExpr (bindNode (xi ++ xo)) id u)
    rw [bb_Expr v, bb_Expr l, bb_Expr u]
  | .array vs => by
    show (.array (mapExprs (bindNode xo) id (mapExprs (bindNode xi) id vs)) : Expr) = .array (mapExprs (bindNode (xi ++ xo)) id vs)
    rw [bb_Exprs vs]
  | .inQuery v q => by
    show (.inQuery (mapExpr (bindNode xo) id (mapExpr (bindNode xi) id v)) (mapQuery (bindNode xo) id (mapQuery (bindNode xi) id q)) : Expr) = .inQuery (mapExpr (bindNode (xi ++ xo)) id v) (mapQuery (bindNode (xi ++ xo)) id q)
    rw [bb_Expr v, bb_Query q]
  | .inList v es => by
    show (.inList (mapExpr (bindNode xo) id (mapExpr (bindNode xi) id v)) (mapExprs (bindNode xo) id (mapExprs (bindNode xi) id es)) : Expr) = .inList (mapExpr (bindNode (xi ++ xo)) id v) (mapExprs (bindNode (xi ++ xo)) id es)
    rw [bb_Expr v, bb_Exprs es]
  | .like v p e => by
    show (.like (mapExpr (bindNode xo) id (mapExpr (bindNode xi) id v)) (mapExpr (bindNode xo) id (mapExpr (bindNode xi) id p)) (mapExprOpt (bindNode xo) id (mapExprOpt (bindNode xi) id e)) : Expr) = .like (mapExpr (bindNode (xi ++ xo)) id v) (mapExpr (bindNode (xi ++ xo)) id p) (mapExprOpt (bindNode (xi ++ xo)) id e)
    rw [bb_Expr v, bb_Expr p, bb_ExprOpt e]
  | .typeCtor v t => rfl
  | .row vs => by
    show (.row (mapExprs (bindNode xo) id (mapExprs (bindNode xi) id vs)) : Expr) = .row (mapExprs (bindNode (xi ++ xo)) id vs)
    rw [bb_Exprs vs]
  | .interval v f t => rfl
  | .cast tr e t => by
    show (.cast tr (mapExpr (bindNode xo) id (mapExpr (bindNode xi) id e)) t : Expr) = .cast tr (mapExpr (bindNode (xi ++ xo)) id e) t
    rw [bb_Expr e]
  | .subscript v i => by
    show (.subscript (mapExpr (bindNode xo) id (mapExpr (bindNode xi) id v)) (mapExpr (bindNode xo) id (mapExpr (bindNode xi) id i)) : Expr) = .subscript (mapExpr (bindNode (xi ++ xo)) id v) (mapExpr (bindNode (xi ++ xo)) id i)
    rw [bb_Expr v, bb_Expr i]
  | .case v bs e => by
    show (.case (mapExprOpt (bindNode xo) id (mapExprOpt (bindNode xi) id v)) (mapWhens (bindNode xo) id (mapWhens (bindNode xi) id bs)) (mapExprOpt (bindNode xo) id (mapExprOpt (bindNode xi) id e)) : Expr) = .case (mapExprOpt (bindNode (xi ++ xo)) id v) (mapWhens (bindNode (xi ++ xo)) id bs) (mapExprOpt (bindNode (xi ++ xo)) id e)
    rw [bb_ExprOpt v, bb_Whens bs, bb_ExprOpt e]
  | .func f as => by
    show (.func f (mapExprs (bindNode xo) id (mapExprs (bindNode xi) id as)) : Expr) = .func f (mapExprs (bindNode (xi ++ xo)) id as)
    rw [bb_Exprs as]
  | .agg f as ob fl w ign => by
    show (.agg f (mapExprs (bindNode xo) id (mapExprs (bindNode xi) id as)) (mapOrds (bindNode xo) id (mapOrds (bindNode xi) id ob)) (mapExprOpt (bindNode xo) id (mapExprOpt (bindNode xi) id fl)) (mapWinOpt (bindNode xo) id (mapWinOpt (bindNode xi) id w)) ign : Expr) = .agg f (mapExprs (bindNode (xi ++ xo)) id as) (mapOrds (bindNode (xi ++ xo)) id ob) (mapExprOpt (bindNode (xi ++ xo)) id fl) (mapWinOpt (bindNode (xi ++ xo)) id w) ign
    rw [bb_Exprs as, bb_Ords ob, bb_ExprOpt fl, bb_WinOpt w]
  | .listagg v sep ov ob => by
    show (.listagg (mapExpr (bindNode xo) id (mapExpr (bindNode xi) id v)) sep ov (mapOrds (bindNode xo) id (mapOrds (bindNode xi) id ob)) : Expr) = .listagg (mapExpr (bindNode (xi ++ xo)) id v) sep ov (mapOrds (bindNode (xi ++ xo)) id ob)
    rw [bb_Expr v, bb_Ords ob]
  | .curTime f p => rfl
  | .session f => rfl
  | .normalize v fo => by
    show (.normalize (mapExpr (bindNode xo) id (mapExpr (bindNode xi) id v)) fo : Expr) = .normalize (mapExpr (bindNode (xi ++ xo)) id v) fo
    rw [bb_Expr v]
  | .query q => by
    show (.query (mapQuery (bindNode xo) id (mapQuery (bindNode xi) id q)) : Expr) = .query (mapQuery (bindNode (xi ++ xo)) id q)
    rw [bb_Query q]
theorem bb_Ord : ∀ (x : Ord), mapOrd (bindNode xo) id (mapOrd (bindNode xi) id x) = mapOrd (bindNode (xi ++ xo)) id x
  | .mk v d nf => by
    show (.mk (mapExpr (bindNode xo) id (mapExpr (bindNode xi) id v)) d nf : Ord) = .mk (mapExpr (bindNode (xi ++ xo)) id v) d nf
    rw [bb_Expr v]
theorem bb_Bound : ∀ (x : Bound), mapBound (bindNode xo) id (mapBound (bindNode xi) id x) = mapBound (bindNode (xi ++ xo)) id x
  | .bounded t e => by
    show (.bounded t (mapExpr (bindNode xo) id (mapExpr (bindNode xi) id e)) : Bound) = .bounded t (mapExpr (bindNode (xi ++ xo)) id e)
    rw [bb_Expr e]
  | .unbounded t => rfl
  | .current => rfl
theorem bb_Win : ∀ (x : Win), mapWin (bindNode xo) id (mapWin (bindNode xi) id x) = mapWin (bindNode (xi ++ xo)) id x
  | .mk p ob ps f st en => by
    show (.mk p (mapOrds (bindNode xo) id (mapOrds (bindNode xi) id ob)) (mapExprs (bindNode xo) id (mapExprs (bindNode xi) id ps)) f (mapBound (bindNode xo) id (mapBound (bindNode xi) id st)) (mapBound (bindNode xo) id (mapBound (bindNode xi) id en)) : Win) = .mk p (mapOrds (bindNode (xi ++ xo)) id ob) (mapExprs (bindNode (xi ++ xo)) id ps) f (mapBound (bindNode (xi ++ xo)) id st) (mapBound (bindNode (xi ++ xo)) id en)
    rw [bb_Ords ob, bb_Exprs ps, bb_Bound st, bb_Bound en]
theorem bb_Grp : ∀ (x : Grp), mapGrp (bindNode xo) id (mapGrp (bindNode xi) id x) = mapGrp (bindNode (xi ++ xo)) id x
  | .set vs => by
    show (.set (mapExprs (bindNode xo) id (mapExprs (bindNode xi) id vs)) : Grp) = .set (mapExprs (bindNode (xi ++ xo)) id vs)
    rw [bb_Exprs vs]
  | .sets gs => by
    show (.sets (mapLists (bindNode xo) id (mapLists (bindNode xi) id gs)) : Grp) = .sets (mapLists (bindNode (xi ++ xo)) id gs)
    rw [bb_Lists gs]
  | .cube vs => by
    show (.cube (mapExprs (bindNode xo) id (mapExprs (bindNode xi) id vs)) : Grp) = .cube (mapExprs (bindNode (xi ++ xo)) id vs)
    rw [bb_Exprs vs]
  | .rollup vs => by
    show (.rollup (mapExprs (bindNode xo) id (mapExprs (bindNode xi) id vs)) : Grp) = .rollup (mapExprs (bindNode (xi ++ xo)) id vs)
    rw [bb_Exprs vs]
theorem bb_GroupBy : ∀ (x : GroupBy), mapGroupBy (bindNode xo) id (mapGroupBy (bindNode xi) id x) = mapGroupBy (bindNode (xi ++ xo)) id x
  | .mk gs d => by
    show (.mk (mapGrps (bindNode xo) id (mapGrps (bindNode xi) id gs)) d : GroupBy) = .mk (mapGrps (bindNode (xi ++ xo)) id gs) d
    rw [bb_Grps gs]
theorem bb_Query : ∀ (x : Query), mapQuery (bindNode xo) id (mapQuery (bindNode xi) id x) = mapQuery (bindNode (xi ++ xo)) id x
  | .mk b off lim ob w => by
    show (.mk (mapQBody (bindNode xo) id (mapQBody (bindNode xi) id b)) off lim (mapOrds (bindNode xo) id (mapOrds (bindNode xi) id ob)) (mapNameds (bindNode xo) id (mapNameds (bindNode xi) id w)) : Query) = .mk (mapQBody (bindNode (xi ++ xo)) id b) off lim (mapOrds (bindNode (xi ++ xo)) id ob) (mapNameds (bindNode (xi ++ xo)) id w)
    rw [bb_QBody b, bb_Ords ob, bb_Nameds w]
theorem bb_QBody : ∀ (x : QBody), mapQBody (bindNode xo) id (mapQBody (bindNode xi) id x) = mapQBody (bindNode (xi ++ xo)) id x
  | .select items fr wh gb hv d wins => by
    show (.select (mapExprs (bindNode xo) id (mapExprs (bindNode xi) id items)) (mapRelOpt (bindNode xo) id (mapRelOpt (bindNode xi) id fr)) (mapExprOpt (bindNode xo) id (mapExprOpt (bindNode xi) id wh)) (mapGroupByOpt (bindNode xo) id (mapGroupByOpt (bindNode xi) id gb)) (mapExprOpt (bindNode xo) id (mapExprOpt (bindNode xi) id hv)) d (mapNamedWins (bindNode xo) id (mapNamedWins (bindNode xi) id wins)) : QBody) = .select (mapExprs (bindNode (xi ++ xo)) id items) (mapRelOpt (bindNode (xi ++ xo)) id fr) (mapExprOpt (bindNode (xi ++ xo)) id wh) (mapGroupByOpt (bindNode (xi ++ xo)) id gb) (mapExprOpt (bindNode (xi ++ xo)) id hv) d (mapNamedWins (bindNode (xi ++ xo)) id wins)
    rw [bb_Exprs items, bb_RelOpt fr, bb_ExprOpt wh, bb_GroupByOpt gb, bb_ExprOpt hv, bb_NamedWins wins]
  | .set k l r d => by
    show (.set k (mapQuery (bindNode xo) id (mapQuery (bindNode xi) id l)) (mapQuery (bindNode xo) id (mapQuery (bindNode xi) id r)) d : QBody) = .set k (mapQuery (bindNode (xi ++ xo)) id l) (mapQuery (bindNode (xi ++ xo)) id r) d
    rw [bb_Query l, bb_Query r]
  | .table t => rfl
  | .values es => by
    show (.values (mapExprs (bindNode xo) id (mapExprs (bindNode xi) id es)) : QBody) = .values (mapExprs (bindNode (xi ++ xo)) id es)
    rw [bb_Exprs es]
theorem bb_Named : ∀ (x : Named), mapNamed (bindNode xo) id (mapNamed (bindNode xi) id x) = mapNamed (bindNode (xi ++ xo)) id x
  | .mk r a cols => by
    show (.mk (mapRel (bindNode xo) id (mapRel (bindNode xi) id r)) a cols : Named) = .mk (mapRel (bindNode (xi ++ xo)) id r) a cols
    rw [bb_Rel r]
theorem bb_Rel : ∀ (x : Rel), mapRel (bindNode xo) id (mapRel (bindNode xi) id x) = mapRel (bindNode (xi ++ xo)) id x
  | .table t => rfl
  | .query q => by
    show (.query (mapQuery (bindNode xo) id (mapQuery (bindNode xi) id q)) : Rel) = .query (mapQuery (bindNode (xi ++ xo)) id q)
    rw [bb_Query q]
  | .aliased n => by
    show (.aliased (mapNamed (bindNode xo) id (mapNamed (bindNode xi) id n)) : Rel) = .aliased (mapNamed (bindNode (xi ++ xo)) id n)
    rw [bb_Named n]
  | .join l r t nat cr => by
    show (.join (mapRel (bindNode xo) id (mapRel (bindNode xi) id l)) (mapRel (bindNode xo) id (mapRel (bindNode xi) id r)) t nat (mapCritOpt (bindNode xo) id (mapCritOpt (bindNode xi) id cr)) : Rel) = .join (mapRel (bindNode (xi ++ xo)) id l) (mapRel (bindNode (xi ++ xo)) id r) t nat (mapCritOpt (bindNode (xi ++ xo)) id cr)
    rw [bb_Rel l, bb_Rel r, bb_CritOpt cr]
  | .unnest as ord => by
    show (.unnest (mapExprs (bindNode xo) id (mapExprs (bindNode xi) id as)) ord : Rel) = .unnest (mapExprs (bindNode (xi ++ xo)) id as) ord
    rw [bb_Exprs as]
  | .lateral q => by
    show (.lateral (mapQuery (bindNode xo) id (mapQuery (bindNode xi) id q)) : Rel) = .lateral (mapQuery (bindNode (xi ++ xo)) id q)
    rw [bb_Query q]
  | .sample r t p => by
    show (.sample (mapRel (bindNode xo) id (mapRel (bindNode xi) id r)) t (mapExpr (bindNode xo) id (mapExpr (bindNode xi) id p)) : Rel) = .sample (mapRel (bindNode (xi ++ xo)) id r) t (mapExpr (bindNode (xi ++ xo)) id p)
    rw [bb_Rel r, bb_Expr p]
theorem bb_Crit : ∀ (x : Crit), mapCrit (bindNode xo) id (mapCrit (bindNode xi) id x) = mapCrit (bindNode (xi ++ xo)) id x
  | .using cols => rfl
  | .on e => by
    show (.on (mapExpr (bindNode xo) id (mapExpr (bindNode xi) id e)) : Crit) = .on (mapExpr (bindNode (xi ++ xo)) id e)
    rw [bb_Expr e]
theorem bb_ExprOpt : ∀ (x : Option Expr), mapExprOpt (bindNode xo) id (mapExprOpt (bindNode xi) id x) = mapExprOpt (bindNode (xi ++ xo)) id x
  | none => rfl
  | some x => by
    show some (mapExpr (bindNode xo) id (mapExpr (bindNode xi) id x)) = some (mapExpr (bindNode (xi ++ xo)) id x)
    rw [bb_Expr x]
theorem bb_Exprs : ∀ (x : List Expr), mapExprs (bindNode xo) id (mapExprs (bindNode xi) id x) = mapExprs (bindNode (xi ++ xo)) id x
  | [] => rfl
  | x :: xs => by
    show mapExpr (bindNode xo) id (mapExpr (bindNode xi) id x) :: mapExprs (bindNode xo) id (mapExprs (bindNode xi) id xs) = mapExpr (bindNode (xi ++ xo)) id x :: mapExprs (bindNode (xi ++ xo)) id xs
    rw [bb_Expr x, bb_Exprs xs]
theorem bb_Lists : ∀ (x : List (List Expr)), mapLists (bindNode xo) id (mapLists (bindNode xi) id x) = mapLists (bindNode (xi ++ xo)) id x
  | [] => rfl
  | x :: xs => by
    show mapExprs (bindNode xo) id (mapExprs (bindNode xi) id x) :: mapLists (bindNode xo) id (mapLists (bindNode xi) id xs) = mapExprs (bindNode (xi ++ xo)) id x :: mapLists (bindNode (xi ++ xo)) id xs
    rw [bb_Exprs x, bb_Lists xs]
theorem bb_Whens : ∀ (x : List (Expr × Expr)), mapWhens (bindNode xo) id (mapWhens (bindNode xi) id x) = mapWhens (bindNode (xi ++ xo)) id x
  | [] => rfl
  | (c, v) :: xs => by
    show (mapExpr (bindNode xo) id (mapExpr (bindNode xi) id c), mapExpr (bindNode xo) id (mapExpr (bindNode xi) id v)) :: mapWhens (bindNode xo) id (mapWhens (bindNode xi) id xs) = (mapExpr (bindNode (xi ++ xo)) id c, mapExpr (bindNode (xi ++ xo)) id v) :: mapWhens (bindNode (xi ++ xo)) id xs
    rw [bb_Expr c, bb_Expr v, bb_Whens xs]
theorem bb_Ords : ∀ (x : List Ord), mapOrds (bindNode xo) id (mapOrds (bindNode xi) id x) = mapOrds (bindNode (xi ++ xo)) id x
  | [] => rfl
  | x :: xs => by
    show mapOrd (bindNode xo) id (mapOrd (bindNode xi) id x) :: mapOrds (bindNode xo) id (mapOrds (bindNode xi) id xs) = mapOrd (bindNode (xi ++ xo)) id x :: mapOrds (bindNode (xi ++ xo)) id xs
    rw [bb_Ord x, bb_Ords xs]
theorem bb_WinOpt : ∀ (x : Option Win), mapWinOpt (bindNode xo) id (mapWinOpt (bindNode xi) id x) = mapWinOpt (bindNode (xi ++ xo)) id x
  | none => rfl
  | some x => by
    show some (mapWin (bindNode xo) id (mapWin (bindNode xi) id x)) = some (mapWin (bindNode (xi ++ xo)) id x)
    rw [bb_Win x]
theorem bb_Grps : ∀ (x : List Grp), mapGrps (bindNode xo) id (mapGrps (bindNode xi) id x) = mapGrps (bindNode (xi ++ xo)) id x
  | [] => rfl
  | x :: xs => by
    show mapGrp (bindNode xo) id (mapGrp (bindNode xi) id x) :: mapGrps (bindNode xo) id (mapGrps (bindNode xi) id xs) = mapGrp (bindNode (xi ++ xo)) id x :: mapGrps (bindNode (xi ++ xo)) id xs
    rw [bb_Grp x, bb_Grps xs]
theorem bb_GroupByOpt : ∀ (x : Option GroupBy), mapGroupByOpt (bindNode xo) id (mapGroupByOpt (bindNode xi) id x) = mapGroupByOpt (bindNode (xi ++ xo)) id x
  | none => rfl
  | some x => by
    show some (mapGroupBy (bindNode xo) id (mapGroupBy (bindNode xi) id x)) = some (mapGroupBy (bindNode (xi ++ xo)) id x)
    rw [bb_GroupBy x]
theorem bb_NamedWins : ∀ (x : List (Str × Win)), mapNamedWins (bindNode xo) id (mapNamedWins (bindNode xi) id x) = mapNamedWins (bindNode (xi ++ xo)) id x
  | [] => rfl
  | (n, w) :: xs => by
    show (n, mapWin (bindNode xo) id (mapWin (bindNode xi) id w)) :: mapNamedWins (bindNode xo) id (mapNamedWins (bindNode xi) id xs) = (n, mapWin (bindNode (xi ++ xo)) id w) :: mapNamedWins (bindNode (xi ++ xo)) id xs
    rw [bb_Win w, bb_NamedWins xs]
theorem bb_Nameds : ∀ (x : List Named), mapNameds (bindNode xo) id (mapNameds (bindNode xi) id x) = mapNameds (bindNode (xi ++ xo)) id x
  | [] => rfl
  | x :: xs => by
    show mapNamed (bindNode xo) id (mapNamed (bindNode xi) id x) :: mapNameds (bindNode xo) id (mapNameds (bindNode xi) id xs) = mapNamed (bindNode (xi ++ xo)) id x :: mapNameds (bindNode (xi ++ xo)) id xs
    rw [bb_Named x, bb_Nameds xs]
theorem bb_RelOpt : ∀ (x : Option Rel), mapRelOpt (bindNode xo) id (mapRelOpt (bindNode xi) id x) = mapRelOpt (bindNode (xi ++ xo)) id x
  | none => rfl
  | some x => by
    show some (mapRel (bindNode xo) id (mapRel (bindNode xi) id x)) = some (mapRel (bindNode (xi ++ xo)) id x)
    rw [bb_Rel x]
theorem bb_CritOpt : ∀ (x : Option Crit), mapCritOpt (bindNode xo) id (mapCritOpt (bindNode xi) id x) = mapCritOpt (bindNode (xi ++ xo)) id x
  | none => rfl
  | some x => by
    show some (mapCrit (bindNode xo) id (mapCrit (bindNode xi) id x)) = some (mapCrit (bindNode (xi ++ xo)) id x)
    rw [bb_Crit x]
end
end

/-- The options that are used when `o` is given: `o` itself, or those of `str`. -/
def Uses (o p : Opts) : Prop := p = o ∨ p = dfltOpts

theorem starPrefix_truthy (t : Option Str) : starPrefix (truthy t) = starPrefix t := by
  unfold starPrefix; rw [truthy_truthy]
theorem parentEntry_truthy (t : Option Str) : parentEntry (truthy t) = parentEntry t := by
  unfold parentEntry; rw [truthy_truthy]
theorem rowsEntries_rows (a b : Option Int) : rowsEntries (rowsOf a) (rowsOf b) = rowsEntries a b := by
  have key (x : Option Int) : rowsOf x = x ∨ rowsOf x = none ∧ x = some 0 := by
    cases x with
    | none => exact .inl rfl
    | some n =>
      by_cases h : n = 0
      · subst h; exact .inr ⟨rfl, rfl⟩
      · exact .inl (if_neg h)
  rcases key a with h | ⟨h, ha⟩ <;> rcases key b with h' | ⟨h', hb⟩ <;> rw [h, h']
  · rw [hb]; rfl
  · rw [ha]; rfl
  · rw [ha, hb]; rfl

theorem isQuery_same (r : Rel) (bs : List Str) : (mapRel (bindNode bs) id r.reread).isQuery = r.isQuery := by
  cases r <;> rfl
theorem isJoin_same (r : Rel) (bs : List Str) : (mapRel (bindNode bs) id r.reread).isJoin = r.isJoin := by
  cases r <;> rfl
theorem fromText_same (r : Option Rel) (bs : List Str) : fromText (mapRelOpt (bindNode bs) id (Rel.rereadOpt r)) = fromText r := by
  cases r with
  | none => rfl
  | some r =>
    funext s
    show (if (mapRel (bindNode bs) id r.reread).isQuery then _ else _) = _
    rw [isQuery_same]; rfl

/-- A number with a minus sign has a precedence of its own only before it is read. -/
def PrecSame (a b : Option Nat) : Prop := a = b ∨ b = some 8 ∧ a = none

theorem map_prec (bs : List Str) (e : Expr) : (mapExpr (bindNode bs) id e).prec = e.prec := by
  cases e
  case field n tn t =>
    cases tn with
    | some m => rfl
    | none =>
      show (if n ∈ bs then Expr.var n else .field n none t).prec = none
      split <;> rfl
  case func f as => cases f <;> rfl
  all_goals rfl

theorem map_sign (bs : List Str) (op : UnOp) (e : Expr) : mapExpr (bindNode bs) id (.un op e) = .un op (mapExpr (bindNode bs) id e) := rfl

theorem signedOf_prec (op : UnOp) (e : Expr) : PrecSame (signedOf op e).prec (some 8) := by
  unfold signedOf
  split
  · exact .inr ⟨rfl, rfl⟩
  · exact .inr ⟨rfl, rfl⟩
  · exact .inl rfl

theorem prec_same (bs : List Str) (v : Expr) (h : Upright v) : PrecSame (mapExpr (bindNode bs) id v.reread).prec v.prec := by
  rw [map_prec]
  cases v
  case un op v => rw [Expr_reread_un]; exact signedOf_prec op _
  case not v =>
    have h : isEquality v = false := h
    rw [Expr_reread_not, notOf, h]; exact .inl rfl
  case func f as => cases f <;> exact .inl rfl
  all_goals exact .inl rfl

/-- Operands that are never put in parentheses when they have the highest precedence. -/
def High (c : Option Nat) (left : Bool) : Bool := match c with
  | none => true
  | some n => decide (n < 8) || (decide (n = 8) && left)

theorem pem_same {c : Option Nat} {left : Bool} (hc : High c left = true) {a b : Option Nat} (h : PrecSame a b) {s s' d d' : Except Err Str}
    (hs : s = s') (hd : d = d') : pemdas c a left s d = pemdas c b left s' d' := by
  subst hs hd
  rcases h with rfl | ⟨rfl, rfl⟩
  · rfl
  · cases c with
    | none => rfl
    | some n =>
      simp only [High, Bool.or_eq_true, Bool.and_eq_true, decide_eq_true_eq] at hc
      show s = if n = 8 then _ else _
      rcases hc with h | ⟨rfl, rfl⟩
      · rw [if_neg (by omega), if_neg (by omega)]
      · rfl

variable {o : Opts}

theorem st_field {n : Str} {tn : Option Str} {t : Ty} {bs : List Str} {p : Opts} {neg : Bool} (h : Expr.Stable bs o (.field n tn t)) :
    (mapExpr (bindNode bs) id (Expr.field n tn t).reread).sqlN neg p = (Expr.field n tn t).sqlN neg p := by
  rw [Expr_Stable_field] at h
  rw [Expr_reread_field, Expr_sqlN_field]
  cases ht : truthy tn with
  | some m =>
    show Except.ok (chainIdents [truthy (some m), some n]) = _
    rw [← ht, truthy_truthy]
  | none =>
    show Expr.sqlN neg p (if n ∈ bs then .var n else .field n none .unknown) = _
    rw [if_neg (h ht)]
    rfl

theorem st_var {n : Str} {bs : List Str} {p : Opts} {neg : Bool} (h : Expr.Stable bs o (.var n)) :
    (mapExpr (bindNode bs) id (Expr.var n).reread).sqlN neg p = (Expr.var n).sqlN neg p := by
  have h : n ∈ bs := h
  show Expr.sqlN neg p (if n ∈ bs then .var n else .field n none .unknown) = _
  rw [if_pos h]

theorem signed_other {op : UnOp} {v : Expr} (h : SignStable op v) : (∃ n t, op = .neg ∧ v = .lit (some (.int n)) t ∧ 0 < n) ∨
    (∃ d t, op = .neg ∧ v = .lit (some (.dec d)) t ∧ d.neg = false) ∨ signedOf op v.reread = .un op v.reread := by
  cases op with
  | pos => exact .inr (.inr rfl)
  | neg =>
    cases v
    case lit x t =>
      rcases x with _ | (_ | n | _ | d | _)
      case some.int => exact .inl ⟨n, t, rfl, rfl, h⟩
      case some.dec => exact .inr (.inl ⟨d, t, rfl, rfl, h⟩)
      all_goals exact .inr (.inr rfl)
    case un op v =>
      cases op with
      | neg => exact h.elim
      | pos => exact .inr (.inr rfl)
    case not v =>
      right; right
      rw [Expr_reread_not, notOf]
      cases hq : isEquality v with
      | false => rfl
      | true =>
        cases v
        case bin op a b =>
          cases op
          case eq => rfl
          case ne => rfl
          all_goals exact nomatch hq
        all_goals exact nomatch hq
    all_goals exact .inr (.inr rfl)

theorem st_un {op : UnOp} {v : Expr} {bs : List Str} {p : Opts} {neg : Bool} (hu : Upright v) (hs : SignStable op v)
    (hp : PrecSame (mapExpr (bindNode bs) id v.reread).prec v.prec)
    (h1 : (mapExpr (bindNode bs) id v.reread).sqlN false p = v.sqlN false p)
    (h2 : (mapExpr (bindNode bs) id v.reread).sqlN false dfltOpts = v.sqlN false dfltOpts) :
    (mapExpr (bindNode bs) id (Expr.un op v).reread).sqlN neg p = (Expr.un op v).sqlN neg p := by
  rw [Expr_reread_un]
  rcases signed_other hs with ⟨n, t, rfl, rfl, h⟩ | ⟨d, t, rfl, rfl, h⟩ | he
  · show Except.ok (intStr (-n)) = .ok (c% "-" ++ intStr n)
    obtain ⟨m, rfl⟩ : ∃ m : Nat, n = (m + 1 : Nat) := ⟨(n - 1).toNat, by omega⟩
    rfl
  · show Except.ok (Dec.str { d with neg := !d.neg }) = .ok (c% "-" ++ d.str)
    rw [Dec.str_eq, Dec.str_eq, h]
    rfl
  · rw [he, map_sign, Expr_sqlN_un, Expr_sqlN_un, pem_same (by decide) hp h1 h2]

theorem uses_ite {o p : Opts} (hp : Uses o p) {c : Prop} [Decidable c] : Uses o (if c then dfltOpts else p) := by
  split
  · exact .inr rfl
  · exact hp

theorem prec_high (op : BinOp) (left : Bool) : High op.prec left = true := by cases op <;> rfl

/-- Below AND, OR and IS DISTINCT FROM nothing but AND and OR is put in parentheses. -/
theorem pem_low {c : Option Nat} (hc : c = some 1 ∨ c = some 0 ∨ c = none) {left : Bool} {v : Expr} {bs : List Str}
    (hv : Upright v → PrecSame (mapExpr (bindNode bs) id v.reread).prec v.prec) {s s' d d' : Except Err Str} (hs : s = s') (hd : d = d') :
    pemdas c (mapExpr (bindNode bs) id v.reread).prec left s d = pemdas c v.prec left s' d' := by
  by_cases hu : Upright v
  · exact pem_same (by rcases hc with rfl | rfl | rfl <;> rfl) (hv hu) hs hd
  · subst hs hd
    cases v
    case not v =>
      have hq : isEquality v = true := by
        cases h : isEquality v with
        | true => rfl
        | false => exact absurd h hu
      have : (mapExpr (bindNode bs) id (Expr.not v).reread).prec = some 4 := by
        rw [map_prec, Expr_reread_not, notOf, hq]
        cases v
        case bin op a b =>
          cases op
          case eq => rfl
          case ne => rfl
          all_goals exact nomatch hq
        all_goals exact nomatch hq
      rw [this]
      rcases hc with rfl | rfl | rfl <;> rfl
    all_goals exact absurd trivial hu

theorem st_bin {op : BinOp} {l r : Expr} {bs : List Str} {p : Opts} {neg : Bool} (hp : Uses o p)
    (hu : op = .and ∨ op = .or ∨ op = .distinct ∨ Upright l ∧ Upright r)
    (hl : Upright l → PrecSame (mapExpr (bindNode bs) id l.reread).prec l.prec)
    (hr : Upright r → PrecSame (mapExpr (bindNode bs) id r.reread).prec r.prec)
    (h1 : ∀ p, Uses o p → (mapExpr (bindNode bs) id l.reread).sqlN false p = l.sqlN false p)
    (h2 : ∀ p, Uses o p → (mapExpr (bindNode bs) id r.reread).sqlN false p = r.sqlN false p) :
    (Expr.bin op (mapExpr (bindNode bs) id l.reread) (mapExpr (bindNode bs) id r.reread)).sqlN neg p = (Expr.bin op l r).sqlN neg p := by
  rw [Expr_sqlN_bin, Expr_sqlN_bin]
  have u := uses_ite (c := neg = true ∧ op = .ne) hp
  have d := h1 dfltOpts (.inr rfl)
  have d' := h2 dfltOpts (.inr rfl)
  have low (h : op = .and ∨ op = .or ∨ op = .distinct) : (if neg then op.flip else op).prec = some 1 ∨ (if neg then op.flip else op).prec = some 0 ∨
      (if neg then op.flip else op).prec = none := by
    cases neg <;> rcases h with rfl | rfl | rfl <;> decide
  have key (b : Bool) {v : Expr} (hv : Upright v → PrecSame (mapExpr (bindNode bs) id v.reread).prec v.prec)
      (hor : (op = .and ∨ op = .or ∨ op = .distinct) ∨ Upright v) {s s' d d' : Except Err Str} (hs : s = s') (hd : d = d') :
      pemdas (if neg then op.flip else op).prec (mapExpr (bindNode bs) id v.reread).prec b s d =
        pemdas (if neg then op.flip else op).prec v.prec b s' d' := by
    rcases hor with h | h
    · exact pem_low (low h) hv hs hd
    · exact pem_same (prec_high _ _) (hv h) hs hd
  have ol : (op = .and ∨ op = .or ∨ op = .distinct) ∨ Upright l := by
    rcases hu with h | h | h | h
    · exact .inl (.inl h)
    · exact .inl (.inr (.inl h))
    · exact .inl (.inr (.inr h))
    · exact .inr h.1
  have or' : (op = .and ∨ op = .or ∨ op = .distinct) ∨ Upright r := by
    rcases hu with h | h | h | h
    · exact .inl (.inl h)
    · exact .inl (.inr (.inl h))
    · exact .inl (.inr (.inr h))
    · exact .inr h.2
  dsimp only
  rw [key true hl ol (h1 _ u) d, key false hr or' (h2 _ u) d']

theorem negatable_same (bs : List Str) {v : Expr} (h : Upright v) : (mapExpr (bindNode bs) id v.reread).negatable = v.negatable := by
  cases v
  case un op v =>
    rw [Expr_reread_un]
    unfold signedOf
    split <;> rfl
  case not v =>
    have h : isEquality v = false := h
    rw [Expr_reread_not, notOf, h]; rfl
  case field n tn t =>
    rw [Expr_reread_field]
    cases truthy tn with
    | some m => rfl
    | none =>
      show (if n ∈ bs then Expr.var n else .field n none .unknown).negatable = false
      split <;> rfl
  case var n =>
    show (if n ∈ bs then Expr.var n else .field n none .unknown).negatable = false
    split <;> rfl
  case bin op a b => cases op <;> rfl
  all_goals rfl

theorem st_not {v : Expr} {bs : List Str} {p : Opts} {neg : Bool} (hneg : neg = false) (hp : Uses o p) (hu : Upright v) (hs : NotStable o v)
    (hv : PrecSame (mapExpr (bindNode bs) id v.reread).prec v.prec)
    (h : ∀ p, Uses o p → ∀ neg, (neg = true → v.negatable = true) → (mapExpr (bindNode bs) id v.reread).sqlN neg p = v.sqlN neg p)
    (hab : ∀ a b, v = .bin .ne a b → ∀ p, Uses o p → (mapExpr (bindNode bs) id a.reread).sqlN false p = a.sqlN false p ∧
      (mapExpr (bindNode bs) id b.reread).sqlN false p = b.sqlN false p) :
    (mapExpr (bindNode bs) id (Expr.not v).reread).sqlN neg p = (Expr.not v).sqlN neg p := by
  subst hneg
  rw [Expr_reread_not]
  cases hq : isEquality v with
  | false =>
    rw [notOf, hq]
    show Expr.sqlN false p (.not (mapExpr (bindNode bs) id v.reread)) = _
    rw [Expr_sqlN_not, Expr_sqlN_not, negatable_same bs hu, pem_same (by decide) hv (h p hp false nofun) (h dfltOpts (.inr rfl) false nofun)]
    cases hn : v.negatable with
    | true => rw [if_pos rfl, if_pos rfl, h p hp true (fun _ => hn)]
    | false => rfl
  | true =>
    rw [notOf, hq, if_pos rfl]
    cases v
    case bin op a b =>
      cases op
      case eq =>
        have h1 := h p hp true (fun _ => rfl)
        exact h1
      case ne =>
        have h1 : _ = (Expr.bin .ne a b).sqlN true dfltOpts := h dfltOpts (.inr rfl) true (fun _ => rfl)
        show (Expr.bin .eq (mapExpr (bindNode bs) id a.reread) (mapExpr (bindNode bs) id b.reread)).sqlN false p = (Expr.bin .ne a b).sqlN true dfltOpts
        rw [← h1]
        show _ = (Expr.bin .eq (mapExpr (bindNode bs) id a.reread) (mapExpr (bindNode bs) id b.reread)).sqlN false dfltOpts
        obtain ⟨a1, b1⟩ := hab a b rfl p hp
        obtain ⟨a2, b2⟩ := hab a b rfl dfltOpts (.inr rfl)
        have ea : a.sqlN false p = a.sqlN false dfltOpts := by
          rcases hp with rfl | rfl
          · exact hs.1
          · rfl
        have eb : b.sqlN false p = b.sqlN false dfltOpts := by
          rcases hp with rfl | rfl
          · exact hs.2
          · rfl
        rw [Expr_sqlN_bin, Expr_sqlN_bin]
        simp only [Bool.false_eq_true, false_and, if_false]
        rw [a1, a2, b1, b2, ea, eb]
        rfl
      all_goals exact nomatch hq
    all_goals exact nomatch hq

mutual
theorem st_Expr : ∀ (x : Expr) (bs : List Str), x.Stable bs o → ∀ p, Uses o p → ∀ neg, (neg = true → x.negatable = true) → (mapExpr (bindNode bs) id (Expr.reread x)).sqlN neg p = x.sqlN neg p
  | .lit v t, bs, hst, p, hp, neg, hn => by
    rfl
  | .field n tn t, bs, hst, p, hp, neg, hn => by
    exact st_field hst
  | .fieldOf n b t, bs, hst, p, hp, neg, hn => by
    rw [Expr_Stable_fieldOf] at hst
    rw [Expr_reread_fieldOf]
    show Expr.sqlN neg p (.fieldOf n (mapExpr (bindNode bs) id (Expr.reread b)) .unknown) = _
    rw [Expr_sqlN_fieldOf, Expr_sqlN_fieldOf, st_Expr b bs hst p hp false nofun]
  | .alias v n, bs, hst, p, hp, neg, hn => by
    rw [Expr_Stable_alias] at hst
    rw [Expr_reread_alias]
    show Expr.sqlN neg p (.alias (mapExpr (bindNode bs) id (Expr.reread v)) n) = _
    rw [Expr_sqlN_alias, Expr_sqlN_alias, st_Expr v bs hst p hp false nofun]
  | .star tn t, bs, hst, p, hp, neg, hn => by
    rw [Expr_reread_star]
    show Expr.sqlN neg p (.star (truthy tn) .unknown) = _
    rw [Expr_sqlN_star, Expr_sqlN_star, starPrefix_truthy]
  | .starOf b t, bs, hst, p, hp, neg, hn => by
    rw [Expr_Stable_starOf] at hst
    rw [Expr_reread_starOf]
    show Expr.sqlN neg p (.starOf (mapExpr (bindNode bs) id (Expr.reread b)) .unknown) = _
    rw [Expr_sqlN_starOf, Expr_sqlN_starOf, st_Expr b bs hst p hp false nofun]
  | .aliasedStar s as, bs, hst, p, hp, neg, hn => by
    rw [Expr_Stable_aliasedStar] at hst
    rw [Expr_reread_aliasedStar]
    show Expr.sqlN neg p (.aliasedStar (mapExpr (bindNode bs) id (Expr.reread s)) as) = _
    rw [Expr_sqlN_aliasedStar, Expr_sqlN_aliasedStar, st_Expr s bs hst p hp false nofun]
  | .var n, bs, hst, p, hp, neg, hn => by
    exact st_var hst
  | .lam ins b, bs, hst, p, hp, neg, hn => by
    rw [Expr_Stable_lam] at hst
    rw [Expr_reread_lam]
    show Expr.sqlN neg p (.lam ins (mapExpr (bindNode bs) id (mapExpr (bindNode ins) id b.reread))) = _
    rw [Expr_sqlN_lam, Expr_sqlN_lam, bb_Expr, st_Expr b _ hst p hp false nofun]
  | .un op v, bs, hst, p, hp, neg, hn => by
    rw [Expr_Stable_un] at hst
    exact st_un hst.2.1 hst.2.2 (prec_same bs v hst.2.1) (st_Expr v bs hst.1 p hp false nofun) (st_Expr v bs hst.1 dfltOpts (.inr rfl) false nofun)
  | .bin op l r, bs, hst, p, hp, neg, hn => by
    rw [Expr_Stable_bin] at hst
    rw [Expr_reread_bin]
    show Expr.sqlN neg p (.bin op (mapExpr (bindNode bs) id l.reread) (mapExpr (bindNode bs) id r.reread)) = _
    exact st_bin hp hst.2.2 (prec_same bs l) (prec_same bs r) (fun p hp => st_Expr l bs hst.1 p hp false nofun) (fun p hp => st_Expr r bs hst.2.1 p hp false nofun)
  | .not v, bs, hst, p, hp, neg, hn => by
    rw [Expr_Stable_not] at hst
    cases v
    case bin op a b =>
      rw [Expr_Stable_bin] at hst
      exact st_not (by cases neg with
        | false => rfl
        | true => exact absurd (hn rfl) nofun) hp hst.2.1 hst.2.2 (prec_same bs _ hst.2.1) (fun p hp neg hn => st_Expr (.bin op a b) bs (by rw [Expr_Stable_bin]; exact hst.1) p hp neg hn)
        (fun x y h => by cases h; exact fun p hp => ⟨st_Expr a bs hst.1.1 p hp false nofun, st_Expr b bs hst.1.2.1 p hp false nofun⟩)
    all_goals exact st_not (by cases neg with
        | false => rfl
        | true => exact absurd (hn rfl) nofun) hp hst.2.1 hst.2.2 (prec_same bs _ hst.2.1) (fun p hp neg hn => st_Expr _ bs hst.1 p hp neg hn) nofun
  | .isNull v, bs, hst, p, hp, neg, hn => by
    rw [Expr_Stable_isNull] at hst
    rw [Expr_reread_isNull]
    show Expr.sqlN neg p (.isNull (mapExpr (bindNode bs) id (Expr.reread v))) = _
    rw [Expr_sqlN_isNull, Expr_sqlN_isNull, pem_same (by decide) (prec_same bs v hst.2) (st_Expr v bs hst.1 p hp false nofun) (st_Expr v bs hst.1 dfltOpts (.inr rfl) false nofun)]
  | .between v l u, bs, hst, p, hp, neg, hn => by
    rw [Expr_Stable_between] at hst
    rw [Expr_reread_between]
    show Expr.sqlN neg p (.between (mapExpr (bindNode bs) id (Expr.reread v)) (mapExpr (bindNode bs) id (Expr.reread l)) (mapExpr (bindNode bs) id (Expr.reread u))) = _
    rw [Expr_sqlN_between, Expr_sqlN_between, pem_same (by decide) (prec_same bs v hst.2.2.2.1) (st_Expr v bs hst.1 p hp false nofun) (st_Expr v bs hst.1 dfltOpts (.inr rfl) false nofun), pem_same (by decide) (prec_same bs l hst.2.2.2.2.1) (st_Expr l bs hst.2.1 p hp false nofun) (st_Expr l bs hst.2.1 dfltOpts (.inr rfl) false nofun), pem_same (by decide) (prec_same bs u hst.2.2.2.2.2) (st_Expr u bs hst.2.2.1 p hp false nofun) (st_Expr u bs hst.2.2.1 dfltOpts (.inr rfl) false nofun)]
  | .array vs, bs, hst, p, hp, neg, hn => by
    rw [Expr_Stable_array] at hst
    rw [Expr_reread_array]
    show Expr.sqlN neg p (.array (mapExprs (bindNode bs) id (Expr.rereads vs))) = _
    rw [Expr_sqlN_array, Expr_sqlN_array, st_Exprs vs bs hst p hp]
  | .inQuery v q, bs, hst, p, hp, neg, hn => by
    rw [Expr_Stable_inQuery] at hst
    rw [Expr_reread_inQuery]
    show Expr.sqlN neg p (.inQuery (mapExpr (bindNode bs) id (Expr.reread v)) (mapQuery (bindNode bs) id (Query.reread q))) = _
    rw [Expr_sqlN_inQuery, Expr_sqlN_inQuery, pem_same (by decide) (prec_same bs v hst.2.2) (st_Expr v bs hst.1 p hp false nofun) (st_Expr v bs hst.1 dfltOpts (.inr rfl) false nofun), st_Query q bs hst.2.1 p hp]
  | .inList v es, bs, hst, p, hp, neg, hn => by
    rw [Expr_Stable_inList] at hst
    rw [Expr_reread_inList]
    show Expr.sqlN neg p (.inList (mapExpr (bindNode bs) id (Expr.reread v)) (mapExprs (bindNode bs) id (Expr.rereads es))) = _
    rw [Expr_sqlN_inList, Expr_sqlN_inList, pem_same (by decide) (prec_same bs v hst.2.2) (st_Expr v bs hst.1 p hp false nofun) (st_Expr v bs hst.1 dfltOpts (.inr rfl) false nofun), st_Exprs es bs hst.2.1 p hp]
  | .like v p1 e, bs, hst, p, hp, neg, hn => by
    rw [Expr_Stable_like] at hst
    rw [Expr_reread_like]
    show Expr.sqlN neg p (.like (mapExpr (bindNode bs) id (Expr.reread v)) (mapExpr (bindNode bs) id (Expr.reread p1)) (mapExprOpt (bindNode bs) id (Expr.rereadOpt e))) = _
    rw [Expr_sqlN_like, Expr_sqlN_like, pem_same (by decide) (prec_same bs v hst.2.2.2.1) (st_Expr v bs hst.1 p hp false nofun) (st_Expr v bs hst.1 dfltOpts (.inr rfl) false nofun), pem_same (by decide) (prec_same bs p1 hst.2.2.2.2) (st_Expr p1 bs hst.2.1 p hp false nofun) (st_Expr p1 bs hst.2.1 dfltOpts (.inr rfl) false nofun), st_ExprOpt e bs hst.2.2.1 p hp]
  | .typeCtor v t, bs, hst, p, hp, neg, hn => by
    rfl
  | .row vs, bs, hst, p, hp, neg, hn => by
    rw [Expr_Stable_row] at hst
    rw [Expr_reread_row]
    show Expr.sqlN neg p (.row (mapExprs (bindNode bs) id (Expr.rereads vs))) = _
    rw [Expr_sqlN_row, Expr_sqlN_row, st_Exprs vs bs hst p hp]
  | .interval v f t, bs, hst, p, hp, neg, hn => by
    rfl
  | .cast tr e t, bs, hst, p, hp, neg, hn => by
    rw [Expr_Stable_cast] at hst
    rw [Expr_reread_cast]
    show Expr.sqlN neg p (.cast tr (mapExpr (bindNode bs) id (Expr.reread e)) t) = _
    rw [Expr_sqlN_cast, Expr_sqlN_cast, st_Expr e bs hst p hp false nofun]
  | .subscript v i, bs, hst, p, hp, neg, hn => by
    rw [Expr_Stable_subscript] at hst
    rw [Expr_reread_subscript]
    show Expr.sqlN neg p (.subscript (mapExpr (bindNode bs) id (Expr.reread v)) (mapExpr (bindNode bs) id (Expr.reread i))) = _
    rw [Expr_sqlN_subscript, Expr_sqlN_subscript, st_Expr v bs hst.1 p hp false nofun, st_Expr i bs hst.2 p hp false nofun]
  | .case v bs1 e, bs, hst, p, hp, neg, hn => by
    rw [Expr_Stable_case] at hst
    rw [Expr_reread_case]
    show Expr.sqlN neg p (.case (mapExprOpt (bindNode bs) id (Expr.rereadOpt v)) (mapWhens (bindNode bs) id (Expr.rereadWhens bs1)) (mapExprOpt (bindNode bs) id (Expr.rereadOpt e))) = _
    rw [Expr_sqlN_case, Expr_sqlN_case, st_ExprOpt v bs hst.1 p hp, st_Whens bs1 bs hst.2.1 p hp, st_ExprOpt e bs hst.2.2 p hp]
  | .func f as, bs, hst, p, hp, neg, hn => by
    rw [Expr_Stable_func] at hst
    rw [Expr_reread_func]
    show Expr.sqlN neg p (.func f (mapExprs (bindNode bs) id (Expr.rereads as))) = _
    rw [Expr_sqlN_func, Expr_sqlN_func, st_Exprs as bs hst p hp]
  | .agg f as ob fl w ign, bs, hst, p, hp, neg, hn => by
    rw [Expr_Stable_agg] at hst
    rw [Expr_reread_agg]
    show Expr.sqlN neg p (.agg f (mapExprs (bindNode bs) id (Expr.rereads as)) (mapOrds (bindNode bs) id (Ord.rereads ob)) (mapExprOpt (bindNode bs) id (Expr.rereadOpt fl)) (mapWinOpt (bindNode bs) id (Win.rereadOpt w)) ign) = _
    rw [Expr_sqlN_agg, Expr_sqlN_agg, st_Exprs as bs hst.1 p hp, st_Ords ob bs hst.2.1 p hp, st_ExprOpt fl bs hst.2.2.1 p hp, st_WinOpt w bs hst.2.2.2 p hp]
  | .listagg v sep ov ob, bs, hst, p, hp, neg, hn => by
    rw [Expr_Stable_listagg] at hst
    rw [Expr_reread_listagg]
    show Expr.sqlN neg p (.listagg (mapExpr (bindNode bs) id (Expr.reread v)) sep ov (mapOrds (bindNode bs) id (Ord.rereads ob))) = _
    rw [Expr_sqlN_listagg, Expr_sqlN_listagg, st_Expr v bs hst.1 p hp false nofun, st_Ords ob bs hst.2 p hp]
  | .curTime f p1, bs, hst, p, hp, neg, hn => by
    rfl
  | .session f, bs, hst, p, hp, neg, hn => by
    rfl
  | .normalize v fo, bs, hst, p, hp, neg, hn => by
    rfl
  | .query q, bs, hst, p, hp, neg, hn => by
    rw [Expr_Stable_query] at hst
    rw [Expr_reread_query]
    show Expr.sqlN neg p (.query (mapQuery (bindNode bs) id (Query.reread q))) = _
    rw [Expr_sqlN_query, Expr_sqlN_query, st_Query q bs hst p hp]
theorem st_Ord : ∀ (x : Ord) (bs : List Str), Ord.Stable bs o x → ∀ p, Uses o p → Ord.sql p (mapOrd (bindNode bs) id (Ord.reread x)) = Ord.sql p x
  | .mk v d nf, bs, hst, p, hp => by
    rw [Ord_Stable_mk] at hst
    rw [Ord_reread_mk]
    show Ord.sql p (.mk (mapExpr (bindNode bs) id (Expr.reread v)) d nf) = _
    rw [Ord_sql_mk, Ord_sql_mk, st_Expr v bs hst p hp false nofun]
theorem st_Bound : ∀ (x : Bound) (bs : List Str), Bound.Stable bs o x → ∀ p, Uses o p → Bound.sql p (mapBound (bindNode bs) id (Bound.reread x)) = Bound.sql p x
  | .bounded t e, bs, hst, p, hp => by
    rw [Bound_Stable_bounded] at hst
    rw [Bound_reread_bounded]
    show Bound.sql p (.bounded t (mapExpr (bindNode bs) id (Expr.reread e))) = _
    rw [Bound_sql_bounded, Bound_sql_bounded, st_Expr e bs hst p hp false nofun]
  | .unbounded t, bs, hst, p, hp => by
    rfl
  | .current, bs, hst, p, hp => by
    rfl
theorem st_Win : ∀ (x : Win) (bs : List Str), Win.Stable bs o x → ∀ p, Uses o p → Win.sql p (mapWin (bindNode bs) id (Win.reread x)) = Win.sql p x
  | .mk p1 ob ps f st en, bs, hst, p, hp => by
    rw [Win_Stable_mk] at hst
    rw [Win_reread_mk]
    show Win.sql p (.mk (truthy p1) (mapOrds (bindNode bs) id (Ord.rereads ob)) (mapExprs (bindNode bs) id (Expr.rereads ps)) f (mapBound (bindNode bs) id (Bound.reread st)) (mapBound (bindNode bs) id (Bound.reread en))) = _
    rw [Win_sql_mk, Win_sql_mk, st_Ords ob bs hst.1 p hp, st_Exprs ps bs hst.2.1 p hp, st_Bound st bs hst.2.2.1 p hp, st_Bound en bs hst.2.2.2 p hp, parentEntry_truthy]
theorem st_Grp : ∀ (x : Grp) (bs : List Str), Grp.Stable bs o x → ∀ p, Uses o p → Grp.sql p (mapGrp (bindNode bs) id (Grp.reread x)) = Grp.sql p x
  | .set vs, bs, hst, p, hp => by
    rw [Grp_Stable_set] at hst
    rw [Grp_reread_set]
    show Grp.sql p (.set (mapExprs (bindNode bs) id (Expr.rereads vs))) = _
    rw [Grp_sql_set, Grp_sql_set, st_Exprs vs bs hst p hp]
  | .sets gs, bs, hst, p, hp => by
    rw [Grp_Stable_sets] at hst
    rw [Grp_reread_sets]
    show Grp.sql p (.sets (mapLists (bindNode bs) id (Expr.rereadLists gs))) = _
    rw [Grp_sql_sets, Grp_sql_sets, st_Lists gs bs hst p hp]
  | .cube vs, bs, hst, p, hp => by
    rw [Grp_Stable_cube] at hst
    rw [Grp_reread_cube]
    show Grp.sql p (.cube (mapExprs (bindNode bs) id (Expr.rereads vs))) = _
    rw [Grp_sql_cube, Grp_sql_cube, st_Exprs vs bs hst p hp]
  | .rollup vs, bs, hst, p, hp => by
    rw [Grp_Stable_rollup] at hst
    rw [Grp_reread_rollup]
    show Grp.sql p (.rollup (mapExprs (bindNode bs) id (Expr.rereads vs))) = _
    rw [Grp_sql_rollup, Grp_sql_rollup, st_Exprs vs bs hst p hp]
theorem st_GroupBy : ∀ (x : GroupBy) (bs : List Str), GroupBy.Stable bs o x → ∀ p, Uses o p → GroupBy.sql p (mapGroupBy (bindNode bs) id (GroupBy.reread x)) = GroupBy.sql p x
  | .mk gs d, bs, hst, p, hp => by
    rw [GroupBy_Stable_mk] at hst
    rw [GroupBy_reread_mk]
    show GroupBy.sql p (.mk (mapGrps (bindNode bs) id (Grp.rereads gs)) d) = _
    rw [GroupBy_sql_mk, GroupBy_sql_mk, st_Grps gs bs hst p hp]
theorem st_Query : ∀ (x : Query) (bs : List Str), Query.Stable bs o x → ∀ p, Uses o p → Query.sql p (mapQuery (bindNode bs) id (Query.reread x)) = Query.sql p x
  | .mk b off lim ob w, bs, hst, p, hp => by
    rw [Query_Stable_mk] at hst
    rw [Query_reread_mk]
    show Query.sql p (.mk (mapQBody (bindNode bs) id b.reread) (rowsOf off) (rowsOf lim) (mapOrds (bindNode bs) id (Ord.rereads ob)) (mapNameds (bindNode bs) id (Named.rereads w))) = _
    rw [Query_sql_mk, Query_sql_mk, st_Ords ob bs hst.2.1 p hp, st_Nameds w bs hst.2.2 p hp, rowsEntries_rows]
    simp only [st_QBody b bs hst.1 p hp]
theorem st_QBody : ∀ (x : QBody) (bs : List Str), x.Stable bs o → ∀ p, Uses o p → ∀ we ce, (mapQBody (bindNode bs) id (QBody.reread x)).sql p we ce = x.sql p we ce
  | .select items fr wh gb hv d wins, bs, hst, p, hp, we, ce => by
    rw [QBody_Stable_select] at hst
    rw [QBody_reread_select]
    show QBody.sql p we ce (.select (mapExprs (bindNode bs) id (Expr.rereads items)) (mapRelOpt (bindNode bs) id (Rel.rereadOpt fr)) (mapExprOpt (bindNode bs) id (Expr.rereadOpt wh)) (mapGroupByOpt (bindNode bs) id (GroupBy.rereadOpt gb)) (mapExprOpt (bindNode bs) id (Expr.rereadOpt hv)) d (mapNamedWins (bindNode bs) id (Win.rereadNamed wins))) = _
    rw [QBody_sql_select, QBody_sql_select, st_Exprs items bs hst.1 p hp, st_RelOpt fr bs hst.2.1 p hp, st_ExprOpt wh bs hst.2.2.1 p hp, st_GroupByOpt gb bs hst.2.2.2.1 p hp, st_ExprOpt hv bs hst.2.2.2.2.1 p hp, st_NamedWins wins bs hst.2.2.2.2.2 p hp, fromText_same]
  | .set k l r d, bs, hst, p, hp, we, ce => by
    rw [QBody_Stable_set] at hst
    rw [QBody_reread_set]
    show QBody.sql p we ce (.set k (mapQuery (bindNode bs) id (Query.reread l)) (mapQuery (bindNode bs) id (Query.reread r)) d) = _
    rw [QBody_sql_set, QBody_sql_set, st_Query l bs hst.1 p hp, st_Query r bs hst.2 p hp]
  | .table t, bs, hst, p, hp, we, ce => by
    rfl
  | .values es, bs, hst, p, hp, we, ce => by
    rw [QBody_Stable_values] at hst
    rw [QBody_reread_values]
    show QBody.sql p we ce (.values (mapExprs (bindNode bs) id (Expr.rereads es))) = _
    rw [QBody_sql_values, QBody_sql_values, st_Exprs es bs hst p hp]
theorem st_Named : ∀ (x : Named) (bs : List Str), Named.Stable bs o x → ∀ p, Uses o p → Named.sql p (mapNamed (bindNode bs) id (Named.reread x)) = Named.sql p x
  | .mk r a cols, bs, hst, p, hp => by
    rw [Named_Stable_mk] at hst
    rw [Named_reread_mk]
    show Named.sql p (.mk (mapRel (bindNode bs) id (Rel.reread r)) a cols) = _
    rw [Named_sql_mk, Named_sql_mk, st_Rel r bs hst p hp, isQuery_same]
theorem st_Rel : ∀ (x : Rel) (bs : List Str), Rel.Stable bs o x → ∀ p, Uses o p → Rel.sql p (mapRel (bindNode bs) id (Rel.reread x)) = Rel.sql p x
  | .table t, bs, hst, p, hp => by
    rfl
  | .query q, bs, hst, p, hp => by
    rw [Rel_Stable_query] at hst
    rw [Rel_reread_query]
    show Rel.sql p (.query (mapQuery (bindNode bs) id (Query.reread q))) = _
    rw [Rel_sql_query, Rel_sql_query, st_Query q bs hst p hp]
  | .aliased n, bs, hst, p, hp => by
    rw [Rel_Stable_aliased] at hst
    rw [Rel_reread_aliased]
    show Rel.sql p (.aliased (mapNamed (bindNode bs) id (Named.reread n))) = _
    rw [Rel_sql_aliased, Rel_sql_aliased, st_Named n bs hst p hp]
  | .join l r t nat cr, bs, hst, p, hp => by
    rw [Rel_Stable_join] at hst
    rw [Rel_reread_join]
    show Rel.sql p (.join (mapRel (bindNode bs) id (Rel.reread l)) (mapRel (bindNode bs) id (Rel.reread r)) t nat (mapCritOpt (bindNode bs) id (Crit.rereadOpt cr))) = _
    rw [Rel_sql_join, Rel_sql_join, st_Rel l bs hst.1 p hp, st_Rel r bs hst.2.1 p hp, st_CritOpt cr bs hst.2.2 p hp, isQuery_same, isQuery_same]
  | .unnest as ord, bs, hst, p, hp => by
    rw [Rel_Stable_unnest] at hst
    rw [Rel_reread_unnest]
    show Rel.sql p (.unnest (mapExprs (bindNode bs) id (Expr.rereads as)) ord) = _
    rw [Rel_sql_unnest, Rel_sql_unnest, st_Exprs as bs hst p hp]
  | .lateral q, bs, hst, p, hp => by
    rw [Rel_Stable_lateral] at hst
    rw [Rel_reread_lateral]
    show Rel.sql p (.lateral (mapQuery (bindNode bs) id (Query.reread q))) = _
    rw [Rel_sql_lateral, Rel_sql_lateral, st_Query q bs hst p hp]
  | .sample r t p1, bs, hst, p, hp => by
    rw [Rel_Stable_sample] at hst
    rw [Rel_reread_sample]
    show Rel.sql p (.sample (mapRel (bindNode bs) id (Rel.reread r)) t (mapExpr (bindNode bs) id (Expr.reread p1))) = _
    rw [Rel_sql_sample, Rel_sql_sample, st_Rel r bs hst.1 p hp, st_Expr p1 bs hst.2 p hp false nofun, isQuery_same, isJoin_same]
theorem st_Crit : ∀ (x : Crit) (bs : List Str), Crit.Stable bs o x → ∀ p, Uses o p → Crit.entries p (mapCrit (bindNode bs) id (Crit.reread x)) = Crit.entries p x
  | .using cols, bs, hst, p, hp => by
    rfl
  | .on e, bs, hst, p, hp => by
    rw [Crit_Stable_on] at hst
    rw [Crit_reread_on]
    show Crit.entries p (.on (mapExpr (bindNode bs) id (Expr.reread e))) = _
    rw [Crit_entries_on, Crit_entries_on, st_Expr e bs hst p hp false nofun]
theorem st_ExprOpt : ∀ (x : Option Expr) (bs : List Str), Expr.StableOpt bs o x → ∀ p, Uses o p → Expr.sqlOpt p (mapExprOpt (bindNode bs) id (Expr.rereadOpt x)) = Expr.sqlOpt p x
  | none, _, _, _, _ => rfl
  | some x, bs, hst, p, hp => by
    rw [Expr_StableOpt_some] at hst
    rw [Expr_rereadOpt_some]
    show Expr.sqlOpt p (some (mapExpr (bindNode bs) id (Expr.reread x))) = _
    rw [Expr_sqlOpt_some, Expr_sqlOpt_some, st_Expr x bs hst p hp false nofun]
theorem st_Exprs : ∀ (x : List Expr) (bs : List Str), Expr.Stables bs o x → ∀ p, Uses o p → Expr.sqls p (mapExprs (bindNode bs) id (Expr.rereads x)) = Expr.sqls p x
  | [], _, _, _, _ => rfl
  | x :: xs, bs, hst, p, hp => by
    rw [Expr_Stables_cons] at hst
    rw [Expr_rereads_cons]
    show Expr.sqls p ((mapExpr (bindNode bs) id (Expr.reread x)) :: (mapExprs (bindNode bs) id (Expr.rereads xs))) = _
    rw [Expr_sqls_cons, Expr_sqls_cons, st_Expr x bs hst.1 p hp false nofun, st_Exprs xs bs hst.2 p hp]
theorem st_Lists : ∀ (x : List (List Expr)) (bs : List Str), Expr.StableLists bs o x → ∀ p, Uses o p → Expr.setSqls p (mapLists (bindNode bs) id (Expr.rereadLists x)) = Expr.setSqls p x
  | [], _, _, _, _ => rfl
  | x :: xs, bs, hst, p, hp => by
    rw [Expr_StableLists_cons] at hst
    rw [Expr_rereadLists_cons]
    show Expr.setSqls p ((mapExprs (bindNode bs) id (Expr.rereads x)) :: (mapLists (bindNode bs) id (Expr.rereadLists xs))) = _
    rw [Expr_setSqls_cons, Expr_setSqls_cons, st_Exprs x bs hst.1 p hp, st_Lists xs bs hst.2 p hp]
theorem st_Whens : ∀ (x : List (Expr × Expr)) (bs : List Str), Expr.StableWhens bs o x → ∀ p, Uses o p → Expr.whens p (mapWhens (bindNode bs) id (Expr.rereadWhens x)) = Expr.whens p x
  | [], _, _, _, _ => rfl
  | (c, v) :: xs, bs, hst, p, hp => by
    rw [Expr_StableWhens_cons] at hst
    rw [Expr_rereadWhens_cons]
    show Expr.whens p (((mapExpr (bindNode bs) id (Expr.reread c)), (mapExpr (bindNode bs) id (Expr.reread v))) :: (mapWhens (bindNode bs) id (Expr.rereadWhens xs))) = _
    rw [Expr_whens_cons, Expr_whens_cons, st_Expr c bs hst.1 p hp false nofun, st_Expr v bs hst.2.1 p hp false nofun, st_Whens xs bs hst.2.2 p hp]
theorem st_Ords : ∀ (x : List Ord) (bs : List Str), Ord.Stables bs o x → ∀ p, Uses o p → Ord.sqls p (mapOrds (bindNode bs) id (Ord.rereads x)) = Ord.sqls p x
  | [], _, _, _, _ => rfl
  | x :: xs, bs, hst, p, hp => by
    rw [Ord_Stables_cons] at hst
    rw [Ord_rereads_cons]
    show Ord.sqls p ((mapOrd (bindNode bs) id (Ord.reread x)) :: (mapOrds (bindNode bs) id (Ord.rereads xs))) = _
    rw [Ord_sqls_cons, Ord_sqls_cons, st_Ord x bs hst.1 p hp, st_Ords xs bs hst.2 p hp]
theorem st_WinOpt : ∀ (x : Option Win) (bs : List Str), Win.StableOpt bs o x → ∀ p, Uses o p → Win.sqlOpt p (mapWinOpt (bindNode bs) id (Win.rereadOpt x)) = Win.sqlOpt p x
  | none, _, _, _, _ => rfl
  | some x, bs, hst, p, hp => by
    rw [Win_StableOpt_some] at hst
    rw [Win_rereadOpt_some]
    show Win.sqlOpt p (some (mapWin (bindNode bs) id (Win.reread x))) = _
    rw [Win_sqlOpt_some, Win_sqlOpt_some, st_Win x bs hst p hp]
theorem st_Grps : ∀ (x : List Grp) (bs : List Str), Grp.Stables bs o x → ∀ p, Uses o p → Grp.sqls p (mapGrps (bindNode bs) id (Grp.rereads x)) = Grp.sqls p x
  | [], _, _, _, _ => rfl
  | x :: xs, bs, hst, p, hp => by
    rw [Grp_Stables_cons] at hst
    rw [Grp_rereads_cons]
    show Grp.sqls p ((mapGrp (bindNode bs) id (Grp.reread x)) :: (mapGrps (bindNode bs) id (Grp.rereads xs))) = _
    rw [Grp_sqls_cons, Grp_sqls_cons, st_Grp x bs hst.1 p hp, st_Grps xs bs hst.2 p hp]
theorem st_GroupByOpt : ∀ (x : Option GroupBy) (bs : List Str), GroupBy.StableOpt bs o x → ∀ p, Uses o p → GroupBy.sqlOpt p (mapGroupByOpt (bindNode bs) id (GroupBy.rereadOpt x)) = GroupBy.sqlOpt p x
  | none, _, _, _, _ => rfl
  | some x, bs, hst, p, hp => by
    rw [GroupBy_StableOpt_some] at hst
    rw [GroupBy_rereadOpt_some]
    show GroupBy.sqlOpt p (some (mapGroupBy (bindNode bs) id (GroupBy.reread x))) = _
    rw [GroupBy_sqlOpt_some, GroupBy_sqlOpt_some, st_GroupBy x bs hst p hp]
theorem st_NamedWins : ∀ (x : List (Str × Win)) (bs : List Str), Win.StableNamed bs o x → ∀ p, Uses o p → Win.namedSqls p (mapNamedWins (bindNode bs) id (Win.rereadNamed x)) = Win.namedSqls p x
  | [], _, _, _, _ => rfl
  | (n, w) :: xs, bs, hst, p, hp => by
    rw [Win_StableNamed_cons] at hst
    rw [Win_rereadNamed_cons]
    show Win.namedSqls p ((n, (mapWin (bindNode bs) id (Win.reread w))) :: (mapNamedWins (bindNode bs) id (Win.rereadNamed xs))) = _
    rw [Win_namedSqls_cons, Win_namedSqls_cons, st_Win w bs hst.1 p hp, st_NamedWins xs bs hst.2 p hp]
theorem st_Nameds : ∀ (x : List Named) (bs : List Str), Named.Stables bs o x → ∀ p, Uses o p → Named.namedSqls p (mapNameds (bindNode bs) id (Named.rereads x)) = Named.namedSqls p x
  | [], _, _, _, _ => rfl
  | .mk r a cols :: xs, bs, hst, p, hp => by
    rw [Named_Stables_cons, Named_Stable_mk] at hst
    rw [Named_rereads_cons, Named_reread_mk]
    show Named.namedSqls p (.mk (mapRel (bindNode bs) id (Rel.reread r)) a cols :: (mapNameds (bindNode bs) id (Named.rereads xs))) = _
    rw [Named_namedSqls_cons, Named_namedSqls_cons, Named_namedSql_mk, Named_namedSql_mk, st_Rel r bs hst.1 p hp, isQuery_same, st_Nameds xs bs hst.2 p hp]
theorem st_RelOpt : ∀ (x : Option Rel) (bs : List Str), Rel.StableOpt bs o x → ∀ p, Uses o p → Rel.sqlOpt p (mapRelOpt (bindNode bs) id (Rel.rereadOpt x)) = Rel.sqlOpt p x
  | none, _, _, _, _ => rfl
  | some x, bs, hst, p, hp => by
    rw [Rel_StableOpt_some] at hst
    rw [Rel_rereadOpt_some]
    show Rel.sqlOpt p (some (mapRel (bindNode bs) id (Rel.reread x))) = _
    rw [Rel_sqlOpt_some, Rel_sqlOpt_some, st_Rel x bs hst p hp]
theorem st_CritOpt : ∀ (x : Option Crit) (bs : List Str), Crit.StableOpt bs o x → ∀ p, Uses o p → Crit.entriesOpt p (mapCritOpt (bindNode bs) id (Crit.rereadOpt x)) = Crit.entriesOpt p x
  | none, _, _, _, _ => rfl
  | some x, bs, hst, p, hp => by
    rw [Crit_StableOpt_some] at hst
    rw [Crit_rereadOpt_some]
    show Crit.entriesOpt p (some (mapCrit (bindNode bs) id (Crit.reread x))) = _
    rw [Crit_entriesOpt_some, Crit_entriesOpt_some, st_Crit x bs hst p hp]
end

end Treeno
