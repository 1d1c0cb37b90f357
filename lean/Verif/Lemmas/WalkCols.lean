import Verif.Lemmas.WalkEqs
import Verif.Lemmas.TypeText
import Verif.Spec.TreeMap
import Verif.Spec.Columns
import Verif.Spec.QueryText
/-!
# Facts about the generic traversal, for any replacement function

Column references before and after.  One statement per tree type; the proofs follow the definition of `walkExpr` arm by arm.
-/
set_option linter.unusedVariables false
set_option maxHeartbeats 1600000
namespace Treeno
open Spec

theorem Spec.All2.append {α β : Type} {R : α → β → Prop} {as : List α} {bs : List β} {cs : List α} {ds : List β}
    (h : All2 R as bs) (h' : All2 R cs ds) : All2 R (as ++ cs) (bs ++ ds) := by
  induction h with
  | nil => exact h'
  | cons h _ ih => exact .cons h ih

variable {lf : Leaf} {tb : TabFn} {g : Expr → Expr} {tg : TableRef → TableRef}

variable {R : Column → Column → Prop}

mutual
theorem walkColsExpr (hlf : ∀ e r, lf e = some (.ok r) → All2 R (colsExpr e) (colsExpr r)) (hfd : ∀ n tn t, lf (.field n tn t) ≠ none) : ∀ (x x' : Expr), walkExpr lf tb x = .ok x' → All2 R (colsExpr x) (colsExpr x')
  | .lit v t, x', h => by
    rw [walkExpr_lit] at h
    cases hsel : lf (.lit v t) with
    | some r =>
      rw [hsel] at h
      cases (show r = _ from h)
      exact hlf _ _ hsel
    | none =>
      rw [hsel, Option.getD_none] at h
      cases h
      exact .nil
  | .field n tn t, x', h => by
    rw [walkExpr_field] at h
    cases hsel : lf (.field n tn t) with
    | some r =>
      rw [hsel] at h
      cases (show r = _ from h)
      exact hlf _ _ hsel
    | none =>
      rw [hsel, Option.getD_none] at h
      cases h
      exact absurd hsel (hfd _ _ _)
  | .fieldOf n b t, x', h => by
    rw [walkExpr_fieldOf] at h
    cases hsel : lf (.fieldOf n b t) with
    | some r =>
      rw [hsel] at h
      cases (show r = _ from h)
      exact hlf _ _ hsel
    | none =>
      rw [hsel, Option.getD_none] at h
      obtain ⟨b', hb, h⟩ := bind_ok h
      cases h
      exact .nil
  | .alias v n, x', h => by
    rw [walkExpr_alias] at h
    cases hsel : lf (.alias v n) with
    | some r =>
      rw [hsel] at h
      cases (show r = _ from h)
      exact hlf _ _ hsel
    | none =>
      rw [hsel, Option.getD_none] at h
      obtain ⟨v', hv, h⟩ := bind_ok h
      cases h
      exact walkColsExpr hlf hfd v v' hv
  | .star tn t, x', h => by
    rw [walkExpr_star] at h
    cases hsel : lf (.star tn t) with
    | some r =>
      rw [hsel] at h
      cases (show r = _ from h)
      exact hlf _ _ hsel
    | none =>
      rw [hsel, Option.getD_none] at h
      cases h
      exact .nil
  | .starOf b t, x', h => by
    rw [walkExpr_starOf] at h
    cases hsel : lf (.starOf b t) with
    | some r =>
      rw [hsel] at h
      cases (show r = _ from h)
      exact hlf _ _ hsel
    | none =>
      rw [hsel, Option.getD_none] at h
      obtain ⟨b', hb, h⟩ := bind_ok h
      cases h
      exact .nil
  | .aliasedStar s as, x', h => by
    rw [walkExpr_aliasedStar] at h
    cases hsel : lf (.aliasedStar s as) with
    | some r =>
      rw [hsel] at h
      cases (show r = _ from h)
      exact hlf _ _ hsel
    | none =>
      rw [hsel, Option.getD_none] at h
      obtain ⟨s', hs, h⟩ := bind_ok h
      cases h
      exact walkColsExpr hlf hfd s s' hs
  | .var n, x', h => by
    rw [walkExpr_var] at h
    cases hsel : lf (.var n) with
    | some r =>
      rw [hsel] at h
      cases (show r = _ from h)
      exact hlf _ _ hsel
    | none =>
      rw [hsel, Option.getD_none] at h
      cases h
      exact .nil
  | .lam ins b, x', h => by
    rw [walkExpr_lam] at h
    cases hsel : lf (.lam ins b) with
    | some r =>
      rw [hsel] at h
      cases (show r = _ from h)
      exact hlf _ _ hsel
    | none =>
      rw [hsel, Option.getD_none] at h
      obtain ⟨b', hb, h⟩ := bind_ok h
      cases h
      exact walkColsExpr hlf hfd b b' hb
  | .un op v, x', h => by
    rw [walkExpr_un] at h
    cases hsel : lf (.un op v) with
    | some r =>
      rw [hsel] at h
      cases (show r = _ from h)
      exact hlf _ _ hsel
    | none =>
      rw [hsel, Option.getD_none] at h
      obtain ⟨v', hv, h⟩ := bind_ok h
      cases h
      exact walkColsExpr hlf hfd v v' hv
  | .bin op l r, x', h => by
    rw [walkExpr_bin] at h
    cases hsel : lf (.bin op l r) with
    | some r =>
      rw [hsel] at h
      cases (show r = _ from h)
      exact hlf _ _ hsel
    | none =>
      rw [hsel, Option.getD_none] at h
      obtain ⟨l', hl, h⟩ := bind_ok h
      obtain ⟨r', hr, h⟩ := bind_ok h
      cases h
      exact All2.append (walkColsExpr hlf hfd l l' hl) (walkColsExpr hlf hfd r r' hr)
  | .not v, x', h => by
    rw [walkExpr_not] at h
    cases hsel : lf (.not v) with
    | some r =>
      rw [hsel] at h
      cases (show r = _ from h)
      exact hlf _ _ hsel
    | none =>
      rw [hsel, Option.getD_none] at h
      obtain ⟨v', hv, h⟩ := bind_ok h
      cases h
      exact walkColsExpr hlf hfd v v' hv
  | .isNull v, x', h => by
    rw [walkExpr_isNull] at h
    cases hsel : lf (.isNull v) with
    | some r =>
      rw [hsel] at h
      cases (show r = _ from h)
      exact hlf _ _ hsel
    | none =>
      rw [hsel, Option.getD_none] at h
      obtain ⟨v', hv, h⟩ := bind_ok h
      cases h
      exact walkColsExpr hlf hfd v v' hv
  | .between v l u, x', h => by
    rw [walkExpr_between] at h
    cases hsel : lf (.between v l u) with
    | some r =>
      rw [hsel] at h
      cases (show r = _ from h)
      exact hlf _ _ hsel
    | none =>
      rw [hsel, Option.getD_none] at h
      obtain ⟨v', hv, h⟩ := bind_ok h
      obtain ⟨l', hl, h⟩ := bind_ok h
      obtain ⟨u', hu, h⟩ := bind_ok h
      cases h
      exact All2.append (All2.append (walkColsExpr hlf hfd v v' hv) (walkColsExpr hlf hfd l l' hl)) (walkColsExpr hlf hfd u u' hu)
  | .array vs, x', h => by
    rw [walkExpr_array] at h
    cases hsel : lf (.array vs) with
    | some r =>
      rw [hsel] at h
      cases (show r = _ from h)
      exact hlf _ _ hsel
    | none =>
      rw [hsel, Option.getD_none] at h
      obtain ⟨vs', hvs, h⟩ := bind_ok h
      cases h
      exact walkColsExprs hlf hfd vs vs' hvs
  | .inQuery v q, x', h => by
    rw [walkExpr_inQuery] at h
    cases hsel : lf (.inQuery v q) with
    | some r =>
      rw [hsel] at h
      cases (show r = _ from h)
      exact hlf _ _ hsel
    | none =>
      rw [hsel, Option.getD_none] at h
      obtain ⟨v', hv, h⟩ := bind_ok h
      obtain ⟨q', hq, h⟩ := bind_ok h
      cases h
      exact All2.append (walkColsExpr hlf hfd v v' hv) (walkColsQuery hlf hfd q q' hq)
  | .inList v es, x', h => by
    rw [walkExpr_inList] at h
    cases hsel : lf (.inList v es) with
    | some r =>
      rw [hsel] at h
      cases (show r = _ from h)
      exact hlf _ _ hsel
    | none =>
      rw [hsel, Option.getD_none] at h
      obtain ⟨v', hv, h⟩ := bind_ok h
      obtain ⟨es', hes, h⟩ := bind_ok h
      cases h
      exact All2.append (walkColsExpr hlf hfd v v' hv) (walkColsExprs hlf hfd es es' hes)
  | .like v p e, x', h => by
    rw [walkExpr_like] at h
    cases hsel : lf (.like v p e) with
    | some r =>
      rw [hsel] at h
      cases (show r = _ from h)
      exact hlf _ _ hsel
    | none =>
      rw [hsel, Option.getD_none] at h
      obtain ⟨v', hv, h⟩ := bind_ok h
      obtain ⟨p', hp, h⟩ := bind_ok h
      obtain ⟨e', he, h⟩ := bind_ok h
      cases h
      exact All2.append (All2.append (walkColsExpr hlf hfd v v' hv) (walkColsExpr hlf hfd p p' hp)) (walkColsExprOpt hlf hfd e e' he)
  | .typeCtor v t, x', h => by
    rw [walkExpr_typeCtor] at h
    cases hsel : lf (.typeCtor v t) with
    | some r =>
      rw [hsel] at h
      cases (show r = _ from h)
      exact hlf _ _ hsel
    | none =>
      rw [hsel, Option.getD_none] at h
      cases h
      exact .nil
  | .row vs, x', h => by
    rw [walkExpr_row] at h
    cases hsel : lf (.row vs) with
    | some r =>
      rw [hsel] at h
      cases (show r = _ from h)
      exact hlf _ _ hsel
    | none =>
      rw [hsel, Option.getD_none] at h
      obtain ⟨vs', hvs, h⟩ := bind_ok h
      cases h
      exact walkColsExprs hlf hfd vs vs' hvs
  | .interval v f t, x', h => by
    rw [walkExpr_interval] at h
    cases hsel : lf (.interval v f t) with
    | some r =>
      rw [hsel] at h
      cases (show r = _ from h)
      exact hlf _ _ hsel
    | none =>
      rw [hsel, Option.getD_none] at h
      cases h
      exact .nil
  | .cast tr e t, x', h => by
    rw [walkExpr_cast] at h
    cases hsel : lf (.cast tr e t) with
    | some r =>
      rw [hsel] at h
      cases (show r = _ from h)
      exact hlf _ _ hsel
    | none =>
      rw [hsel, Option.getD_none] at h
      obtain ⟨e', he, h⟩ := bind_ok h
      cases h
      exact walkColsExpr hlf hfd e e' he
  | .subscript v i, x', h => by
    rw [walkExpr_subscript] at h
    cases hsel : lf (.subscript v i) with
    | some r =>
      rw [hsel] at h
      cases (show r = _ from h)
      exact hlf _ _ hsel
    | none =>
      rw [hsel, Option.getD_none] at h
      obtain ⟨v', hv, h⟩ := bind_ok h
      obtain ⟨i', hi, h⟩ := bind_ok h
      cases h
      exact All2.append (walkColsExpr hlf hfd v v' hv) (walkColsExpr hlf hfd i i' hi)
  | .case v bs e, x', h => by
    rw [walkExpr_case] at h
    cases hsel : lf (.case v bs e) with
    | some r =>
      rw [hsel] at h
      cases (show r = _ from h)
      exact hlf _ _ hsel
    | none =>
      rw [hsel, Option.getD_none] at h
      obtain ⟨v', hv, h⟩ := bind_ok h
      obtain ⟨bs', hbs, h⟩ := bind_ok h
      obtain ⟨e', he, h⟩ := bind_ok h
      cases h
      exact All2.append (All2.append (walkColsExprOpt hlf hfd v v' hv) (walkColsWhens hlf hfd bs bs' hbs)) (walkColsExprOpt hlf hfd e e' he)
  | .func f as, x', h => by
    rw [walkExpr_func] at h
    cases hsel : lf (.func f as) with
    | some r =>
      rw [hsel] at h
      cases (show r = _ from h)
      exact hlf _ _ hsel
    | none =>
      rw [hsel, Option.getD_none] at h
      obtain ⟨as', has, h⟩ := bind_ok h
      cases h
      exact walkColsExprs hlf hfd as as' has
  | .agg f as ob fl w ign, x', h => by
    rw [walkExpr_agg] at h
    cases hsel : lf (.agg f as ob fl w ign) with
    | some r =>
      rw [hsel] at h
      cases (show r = _ from h)
      exact hlf _ _ hsel
    | none =>
      rw [hsel, Option.getD_none] at h
      obtain ⟨as', has, h⟩ := bind_ok h
      obtain ⟨ob', hob, h⟩ := bind_ok h
      obtain ⟨fl', hfl, h⟩ := bind_ok h
      obtain ⟨w', hw, h⟩ := bind_ok h
      cases h
      exact All2.append (All2.append (All2.append (walkColsExprs hlf hfd as as' has) (walkColsOrds hlf hfd ob ob' hob)) (walkColsExprOpt hlf hfd fl fl' hfl)) (walkColsWinOpt hlf hfd w w' hw)
  | .listagg v sep ov ob, x', h => by
    rw [walkExpr_listagg] at h
    cases hsel : lf (.listagg v sep ov ob) with
    | some r =>
      rw [hsel] at h
      cases (show r = _ from h)
      exact hlf _ _ hsel
    | none =>
      rw [hsel, Option.getD_none] at h
      obtain ⟨v', hv, h⟩ := bind_ok h
      obtain ⟨ob', hob, h⟩ := bind_ok h
      cases h
      exact All2.append (walkColsExpr hlf hfd v v' hv) (walkColsOrds hlf hfd ob ob' hob)
  | .curTime f p, x', h => by
    rw [walkExpr_curTime] at h
    cases hsel : lf (.curTime f p) with
    | some r =>
      rw [hsel] at h
      cases (show r = _ from h)
      exact hlf _ _ hsel
    | none =>
      rw [hsel, Option.getD_none] at h
      cases h
      exact .nil
  | .session f, x', h => by
    rw [walkExpr_session] at h
    cases hsel : lf (.session f) with
    | some r =>
      rw [hsel] at h
      cases (show r = _ from h)
      exact hlf _ _ hsel
    | none =>
      rw [hsel, Option.getD_none] at h
      cases h
      exact .nil
  | .normalize v fo, x', h => by
    rw [walkExpr_normalize] at h
    cases hsel : lf (.normalize v fo) with
    | some r =>
      rw [hsel] at h
      cases (show r = _ from h)
      exact hlf _ _ hsel
    | none =>
      rw [hsel, Option.getD_none] at h
      obtain ⟨v', hv, h⟩ := bind_ok h
      cases h
      exact walkColsExpr hlf hfd v v' hv
  | .query q, x', h => by
    rw [walkExpr_query] at h
    cases hsel : lf (.query q) with
    | some r =>
      rw [hsel] at h
      cases (show r = _ from h)
      exact hlf _ _ hsel
    | none =>
      rw [hsel, Option.getD_none] at h
      obtain ⟨q', hq, h⟩ := bind_ok h
      cases h
      exact walkColsQuery hlf hfd q q' hq
theorem walkColsOrd (hlf : ∀ e r, lf e = some (.ok r) → All2 R (colsExpr e) (colsExpr r)) (hfd : ∀ n tn t, lf (.field n tn t) ≠ none) : ∀ (x x' : Ord), walkOrd lf tb x = .ok x' → All2 R (colsOrd x) (colsOrd x')
  | .mk v d nf, x', h => by
    rw [walkOrd_mk] at h
    obtain ⟨v', hv, h⟩ := bind_ok h
    cases h
    exact walkColsExpr hlf hfd v v' hv
theorem walkColsBound (hlf : ∀ e r, lf e = some (.ok r) → All2 R (colsExpr e) (colsExpr r)) (hfd : ∀ n tn t, lf (.field n tn t) ≠ none) : ∀ (x x' : Bound), walkBound lf tb x = .ok x' → All2 R (colsBound x) (colsBound x')
  | .bounded t e, x', h => by
    rw [walkBound_bounded] at h
    obtain ⟨e', he, h⟩ := bind_ok h
    cases h
    exact walkColsExpr hlf hfd e e' he
  | .unbounded t, x', h => by
    rw [walkBound_unbounded] at h
    cases h
    exact .nil
  | .current, x', h => by
    rw [walkBound_current] at h
    cases h
    exact .nil
theorem walkColsWin (hlf : ∀ e r, lf e = some (.ok r) → All2 R (colsExpr e) (colsExpr r)) (hfd : ∀ n tn t, lf (.field n tn t) ≠ none) : ∀ (x x' : Win), walkWin lf tb x = .ok x' → All2 R (colsWin x) (colsWin x')
  | .mk p ob ps f st en, x', h => by
    rw [walkWin_mk] at h
    obtain ⟨ob', hob, h⟩ := bind_ok h
    obtain ⟨ps', hps, h⟩ := bind_ok h
    obtain ⟨st', hst, h⟩ := bind_ok h
    obtain ⟨en', hen, h⟩ := bind_ok h
    cases h
    exact All2.append (All2.append (All2.append (walkColsOrds hlf hfd ob ob' hob) (walkColsExprs hlf hfd ps ps' hps)) (walkColsBound hlf hfd st st' hst)) (walkColsBound hlf hfd en en' hen)
theorem walkColsGrp (hlf : ∀ e r, lf e = some (.ok r) → All2 R (colsExpr e) (colsExpr r)) (hfd : ∀ n tn t, lf (.field n tn t) ≠ none) : ∀ (x x' : Grp), walkGrp lf tb x = .ok x' → All2 R (colsGrp x) (colsGrp x')
  | .set vs, x', h => by
    rw [walkGrp_set] at h
    obtain ⟨vs', hvs, h⟩ := bind_ok h
    cases h
    exact walkColsExprs hlf hfd vs vs' hvs
  | .sets gs, x', h => by
    rw [walkGrp_sets] at h
    obtain ⟨gs', hgs, h⟩ := bind_ok h
    cases h
    exact walkColsLists hlf hfd gs gs' hgs
  | .cube vs, x', h => by
    rw [walkGrp_cube] at h
    obtain ⟨vs', hvs, h⟩ := bind_ok h
    cases h
    exact walkColsExprs hlf hfd vs vs' hvs
  | .rollup vs, x', h => by
    rw [walkGrp_rollup] at h
    obtain ⟨vs', hvs, h⟩ := bind_ok h
    cases h
    exact walkColsExprs hlf hfd vs vs' hvs
theorem walkColsGroupBy (hlf : ∀ e r, lf e = some (.ok r) → All2 R (colsExpr e) (colsExpr r)) (hfd : ∀ n tn t, lf (.field n tn t) ≠ none) : ∀ (x x' : GroupBy), walkGroupBy lf tb x = .ok x' → All2 R (colsGroupBy x) (colsGroupBy x')
  | .mk gs d, x', h => by
    rw [walkGroupBy_mk] at h
    obtain ⟨gs', hgs, h⟩ := bind_ok h
    cases h
    exact walkColsGrps hlf hfd gs gs' hgs
theorem walkColsQuery (hlf : ∀ e r, lf e = some (.ok r) → All2 R (colsExpr e) (colsExpr r)) (hfd : ∀ n tn t, lf (.field n tn t) ≠ none) : ∀ (x x' : Query), walkQuery lf tb x = .ok x' → All2 R (colsQuery x) (colsQuery x')
  | .mk b off lim ob w, x', h => by
    rw [walkQuery_mk] at h
    obtain ⟨b', hb, h⟩ := bind_ok h
    obtain ⟨ob', hob, h⟩ := bind_ok h
    obtain ⟨w', hw, h⟩ := bind_ok h
    cases h
    exact All2.append (All2.append (walkColsQBody hlf hfd b b' hb) (walkColsOrds hlf hfd ob ob' hob)) (walkColsNameds hlf hfd w w' hw)
theorem walkColsQBody (hlf : ∀ e r, lf e = some (.ok r) → All2 R (colsExpr e) (colsExpr r)) (hfd : ∀ n tn t, lf (.field n tn t) ≠ none) : ∀ (x x' : QBody), walkQBody lf tb x = .ok x' → All2 R (colsQBody x) (colsQBody x')
  | .select items fr wh gb hv d wins, x', h => by
    rw [walkQBody_select] at h
    obtain ⟨items', hitems, h⟩ := bind_ok h
    obtain ⟨fr', hfr, h⟩ := bind_ok h
    obtain ⟨wh', hwh, h⟩ := bind_ok h
    obtain ⟨gb', hgb, h⟩ := bind_ok h
    obtain ⟨hv', hhv, h⟩ := bind_ok h
    obtain ⟨wins', hwins, h⟩ := bind_ok h
    cases h
    exact All2.append (All2.append (All2.append (All2.append (All2.append (walkColsExprs hlf hfd items items' hitems) (walkColsRelOpt hlf hfd fr fr' hfr)) (walkColsExprOpt hlf hfd wh wh' hwh)) (walkColsGroupByOpt hlf hfd gb gb' hgb)) (walkColsExprOpt hlf hfd hv hv' hhv)) (walkColsNamedWins hlf hfd wins wins' hwins)
  | .set k l r d, x', h => by
    rw [walkQBody_set] at h
    obtain ⟨l', hl, h⟩ := bind_ok h
    obtain ⟨r', hr, h⟩ := bind_ok h
    cases h
    exact All2.append (walkColsQuery hlf hfd l l' hl) (walkColsQuery hlf hfd r r' hr)
  | .table t, x', h => by
    rw [walkQBody_table] at h
    obtain ⟨t', ht, h⟩ := bind_ok h
    cases h
    exact .nil
  | .values es, x', h => by
    rw [walkQBody_values] at h
    obtain ⟨es', hes, h⟩ := bind_ok h
    cases h
    exact walkColsExprs hlf hfd es es' hes
theorem walkColsNamed (hlf : ∀ e r, lf e = some (.ok r) → All2 R (colsExpr e) (colsExpr r)) (hfd : ∀ n tn t, lf (.field n tn t) ≠ none) : ∀ (x x' : Named), walkNamed lf tb x = .ok x' → All2 R (colsNamed x) (colsNamed x')
  | .mk r a cols, x', h => by
    rw [walkNamed_mk] at h
    obtain ⟨r', hr, h⟩ := bind_ok h
    cases h
    exact walkColsRel hlf hfd r r' hr
theorem walkColsRel (hlf : ∀ e r, lf e = some (.ok r) → All2 R (colsExpr e) (colsExpr r)) (hfd : ∀ n tn t, lf (.field n tn t) ≠ none) : ∀ (x x' : Rel), walkRel lf tb x = .ok x' → All2 R (colsRel x) (colsRel x')
  | .table t, x', h => by
    rw [walkRel_table] at h
    obtain ⟨t', ht, h⟩ := bind_ok h
    cases h
    exact .nil
  | .query q, x', h => by
    rw [walkRel_query] at h
    obtain ⟨q', hq, h⟩ := bind_ok h
    cases h
    exact walkColsQuery hlf hfd q q' hq
  | .aliased n, x', h => by
    rw [walkRel_aliased] at h
    obtain ⟨n', hn, h⟩ := bind_ok h
    cases h
    exact walkColsNamed hlf hfd n n' hn
  | .join l r t nat cr, x', h => by
    rw [walkRel_join] at h
    obtain ⟨l', hl, h⟩ := bind_ok h
    obtain ⟨r', hr, h⟩ := bind_ok h
    obtain ⟨cr', hcr, h⟩ := bind_ok h
    cases h
    exact All2.append (All2.append (walkColsRel hlf hfd l l' hl) (walkColsRel hlf hfd r r' hr)) (walkColsCritOpt hlf hfd cr cr' hcr)
  | .unnest as ord, x', h => by
    rw [walkRel_unnest] at h
    obtain ⟨as', has, h⟩ := bind_ok h
    cases h
    exact walkColsExprs hlf hfd as as' has
  | .lateral q, x', h => by
    rw [walkRel_lateral] at h
    obtain ⟨q', hq, h⟩ := bind_ok h
    cases h
    exact walkColsQuery hlf hfd q q' hq
  | .sample r t p, x', h => by
    rw [walkRel_sample] at h
    obtain ⟨r', hr, h⟩ := bind_ok h
    obtain ⟨p', hp, h⟩ := bind_ok h
    cases h
    exact All2.append (walkColsRel hlf hfd r r' hr) (walkColsExpr hlf hfd p p' hp)
theorem walkColsCrit (hlf : ∀ e r, lf e = some (.ok r) → All2 R (colsExpr e) (colsExpr r)) (hfd : ∀ n tn t, lf (.field n tn t) ≠ none) : ∀ (x x' : Crit), walkCrit lf tb x = .ok x' → All2 R (colsCrit x) (colsCrit x')
  | .using cols, x', h => by
    rw [walkCrit_using] at h
    cases h
    exact .nil
  | .on e, x', h => by
    rw [walkCrit_on] at h
    obtain ⟨e', he, h⟩ := bind_ok h
    cases h
    exact walkColsExpr hlf hfd e e' he
theorem walkColsExprOpt (hlf : ∀ e r, lf e = some (.ok r) → All2 R (colsExpr e) (colsExpr r)) (hfd : ∀ n tn t, lf (.field n tn t) ≠ none) : ∀ (x x' : Option Expr), walkExprOpt lf tb x = .ok x' → All2 R (colsExprOpt x) (colsExprOpt x')
  | none, x', h => by
    rw [walkExprOpt_none] at h
    cases h
    exact .nil
  | some x, x', h => by
    rw [walkExprOpt_some] at h
    obtain ⟨x', hx, h⟩ := bind_ok h
    cases h
    exact walkColsExpr hlf hfd x x' hx
theorem walkColsExprs (hlf : ∀ e r, lf e = some (.ok r) → All2 R (colsExpr e) (colsExpr r)) (hfd : ∀ n tn t, lf (.field n tn t) ≠ none) : ∀ (x x' : List Expr), walkExprs lf tb x = .ok x' → All2 R (colsExprs x) (colsExprs x')
  | [], x', h => by
    rw [walkExprs_nil] at h
    cases h
    exact .nil
  | x :: xs, x', h => by
    rw [walkExprs_cons] at h
    obtain ⟨x', hx, h⟩ := bind_ok h
    obtain ⟨xs', hxs, h⟩ := bind_ok h
    cases h
    exact All2.append (walkColsExpr hlf hfd x x' hx) (walkColsExprs hlf hfd xs xs' hxs)
theorem walkColsLists (hlf : ∀ e r, lf e = some (.ok r) → All2 R (colsExpr e) (colsExpr r)) (hfd : ∀ n tn t, lf (.field n tn t) ≠ none) : ∀ (x x' : List (List Expr)), walkLists lf tb x = .ok x' → All2 R (colsLists x) (colsLists x')
  | [], x', h => by
    rw [walkLists_nil] at h
    cases h
    exact .nil
  | x :: xs, x', h => by
    rw [walkLists_cons] at h
    obtain ⟨x', hx, h⟩ := bind_ok h
    obtain ⟨xs', hxs, h⟩ := bind_ok h
    cases h
    exact All2.append (walkColsExprs hlf hfd x x' hx) (walkColsLists hlf hfd xs xs' hxs)
theorem walkColsWhens (hlf : ∀ e r, lf e = some (.ok r) → All2 R (colsExpr e) (colsExpr r)) (hfd : ∀ n tn t, lf (.field n tn t) ≠ none) : ∀ (x x' : List (Expr × Expr)), walkWhens lf tb x = .ok x' → All2 R (colsWhens x) (colsWhens x')
  | [], x', h => by
    rw [walkWhens_nil] at h
    cases h
    exact .nil
  | (c, v) :: xs, x', h => by
    rw [walkWhens_cons] at h
    obtain ⟨c', hc, h⟩ := bind_ok h
    obtain ⟨v', hv, h⟩ := bind_ok h
    obtain ⟨xs', hxs, h⟩ := bind_ok h
    cases h
    exact All2.append (All2.append (walkColsExpr hlf hfd c c' hc) (walkColsExpr hlf hfd v v' hv)) (walkColsWhens hlf hfd xs xs' hxs)
theorem walkColsOrds (hlf : ∀ e r, lf e = some (.ok r) → All2 R (colsExpr e) (colsExpr r)) (hfd : ∀ n tn t, lf (.field n tn t) ≠ none) : ∀ (x x' : List Ord), walkOrds lf tb x = .ok x' → All2 R (colsOrds x) (colsOrds x')
  | [], x', h => by
    rw [walkOrds_nil] at h
    cases h
    exact .nil
  | x :: xs, x', h => by
    rw [walkOrds_cons] at h
    obtain ⟨x', hx, h⟩ := bind_ok h
    obtain ⟨xs', hxs, h⟩ := bind_ok h
    cases h
    exact All2.append (walkColsOrd hlf hfd x x' hx) (walkColsOrds hlf hfd xs xs' hxs)
theorem walkColsWinOpt (hlf : ∀ e r, lf e = some (.ok r) → All2 R (colsExpr e) (colsExpr r)) (hfd : ∀ n tn t, lf (.field n tn t) ≠ none) : ∀ (x x' : Option Win), walkWinOpt lf tb x = .ok x' → All2 R (colsWinOpt x) (colsWinOpt x')
  | none, x', h => by
    rw [walkWinOpt_none] at h
    cases h
    exact .nil
  | some x, x', h => by
    rw [walkWinOpt_some] at h
    obtain ⟨x', hx, h⟩ := bind_ok h
    cases h
    exact walkColsWin hlf hfd x x' hx
theorem walkColsGrps (hlf : ∀ e r, lf e = some (.ok r) → All2 R (colsExpr e) (colsExpr r)) (hfd : ∀ n tn t, lf (.field n tn t) ≠ none) : ∀ (x x' : List Grp), walkGrps lf tb x = .ok x' → All2 R (colsGrps x) (colsGrps x')
  | [], x', h => by
    rw [walkGrps_nil] at h
    cases h
    exact .nil
  | x :: xs, x', h => by
    rw [walkGrps_cons] at h
    obtain ⟨x', hx, h⟩ := bind_ok h
    obtain ⟨xs', hxs, h⟩ := bind_ok h
    cases h
    exact All2.append (walkColsGrp hlf hfd x x' hx) (walkColsGrps hlf hfd xs xs' hxs)
theorem walkColsGroupByOpt (hlf : ∀ e r, lf e = some (.ok r) → All2 R (colsExpr e) (colsExpr r)) (hfd : ∀ n tn t, lf (.field n tn t) ≠ none) : ∀ (x x' : Option GroupBy), walkGroupByOpt lf tb x = .ok x' → All2 R (colsGroupByOpt x) (colsGroupByOpt x')
  | none, x', h => by
    rw [walkGroupByOpt_none] at h
    cases h
    exact .nil
  | some x, x', h => by
    rw [walkGroupByOpt_some] at h
    obtain ⟨x', hx, h⟩ := bind_ok h
    cases h
    exact walkColsGroupBy hlf hfd x x' hx
theorem walkColsNamedWins (hlf : ∀ e r, lf e = some (.ok r) → All2 R (colsExpr e) (colsExpr r)) (hfd : ∀ n tn t, lf (.field n tn t) ≠ none) : ∀ (x x' : List (Str × Win)), walkNamedWins lf tb x = .ok x' → All2 R (colsNamedWins x) (colsNamedWins x')
  | [], x', h => by
    rw [walkNamedWins_nil] at h
    cases h
    exact .nil
  | (n, w) :: xs, x', h => by
    rw [walkNamedWins_cons] at h
    obtain ⟨w', hw, h⟩ := bind_ok h
    obtain ⟨xs', hxs, h⟩ := bind_ok h
    cases h
    exact All2.append (walkColsWin hlf hfd w w' hw) (walkColsNamedWins hlf hfd xs xs' hxs)
theorem walkColsNameds (hlf : ∀ e r, lf e = some (.ok r) → All2 R (colsExpr e) (colsExpr r)) (hfd : ∀ n tn t, lf (.field n tn t) ≠ none) : ∀ (x x' : List Named), walkNameds lf tb x = .ok x' → All2 R (colsNameds x) (colsNameds x')
  | [], x', h => by
    rw [walkNameds_nil] at h
    cases h
    exact .nil
  | x :: xs, x', h => by
    rw [walkNameds_cons] at h
    obtain ⟨x', hx, h⟩ := bind_ok h
    obtain ⟨xs', hxs, h⟩ := bind_ok h
    cases h
    exact All2.append (walkColsNamed hlf hfd x x' hx) (walkColsNameds hlf hfd xs xs' hxs)
theorem walkColsRelOpt (hlf : ∀ e r, lf e = some (.ok r) → All2 R (colsExpr e) (colsExpr r)) (hfd : ∀ n tn t, lf (.field n tn t) ≠ none) : ∀ (x x' : Option Rel), walkRelOpt lf tb x = .ok x' → All2 R (colsRelOpt x) (colsRelOpt x')
  | none, x', h => by
    rw [walkRelOpt_none] at h
    cases h
    exact .nil
  | some x, x', h => by
    rw [walkRelOpt_some] at h
    obtain ⟨x', hx, h⟩ := bind_ok h
    cases h
    exact walkColsRel hlf hfd x x' hx
theorem walkColsCritOpt (hlf : ∀ e r, lf e = some (.ok r) → All2 R (colsExpr e) (colsExpr r)) (hfd : ∀ n tn t, lf (.field n tn t) ≠ none) : ∀ (x x' : Option Crit), walkCritOpt lf tb x = .ok x' → All2 R (colsCritOpt x) (colsCritOpt x')
  | none, x', h => by
    rw [walkCritOpt_none] at h
    cases h
    exact .nil
  | some x, x', h => by
    rw [walkCritOpt_some] at h
    obtain ⟨x', hx, h⟩ := bind_ok h
    cases h
    exact walkColsCrit hlf hfd x x' hx
end

end Treeno
