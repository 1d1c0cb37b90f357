import Verif.Lemmas.WalkBind
/-!
# The generic traversal twice

If the replacement function leaves its own results alone and looks at nothing but the kind of a node to decide whether
to replace it, a second traversal changes nothing.  One statement per tree type; the proofs follow the definition of
`walkExpr` arm by arm.
-/
set_option linter.unusedVariables false
set_option maxHeartbeats 1600000
namespace Treeno
open Spec

variable {lf : Leaf} {tb : TabFn}

theorem walk_leaf {e : Expr} {r : Except Err Expr} (h : lf e = some r) : walkExpr lf tb e = r := by
  cases e with
  | lit v t => rw [walkExpr_lit, h, Option.getD_some]
  | field n tn t => rw [walkExpr_field, h, Option.getD_some]
  | fieldOf n b t => rw [walkExpr_fieldOf, h, Option.getD_some]
  | «alias» v n => rw [walkExpr_alias, h, Option.getD_some]
  | star tn t => rw [walkExpr_star, h, Option.getD_some]
  | starOf b t => rw [walkExpr_starOf, h, Option.getD_some]
  | aliasedStar s as => rw [walkExpr_aliasedStar, h, Option.getD_some]
  | var n => rw [walkExpr_var, h, Option.getD_some]
  | lam ins b => rw [walkExpr_lam, h, Option.getD_some]
  | un op v => rw [walkExpr_un, h, Option.getD_some]
  | bin op l r => rw [walkExpr_bin, h, Option.getD_some]
  | not v => rw [walkExpr_not, h, Option.getD_some]
  | isNull v => rw [walkExpr_isNull, h, Option.getD_some]
  | between v l u => rw [walkExpr_between, h, Option.getD_some]
  | array vs => rw [walkExpr_array, h, Option.getD_some]
  | inQuery v q => rw [walkExpr_inQuery, h, Option.getD_some]
  | inList v es => rw [walkExpr_inList, h, Option.getD_some]
  | like v p e => rw [walkExpr_like, h, Option.getD_some]
  | typeCtor v t => rw [walkExpr_typeCtor, h, Option.getD_some]
  | row vs => rw [walkExpr_row, h, Option.getD_some]
  | interval v f t => rw [walkExpr_interval, h, Option.getD_some]
  | cast tr e t => rw [walkExpr_cast, h, Option.getD_some]
  | subscript v i => rw [walkExpr_subscript, h, Option.getD_some]
  | case v bs e => rw [walkExpr_case, h, Option.getD_some]
  | func f as => rw [walkExpr_func, h, Option.getD_some]
  | agg f as ob fl w ign => rw [walkExpr_agg, h, Option.getD_some]
  | listagg v sep ov ob => rw [walkExpr_listagg, h, Option.getD_some]
  | curTime f p => rw [walkExpr_curTime, h, Option.getD_some]
  | session f => rw [walkExpr_session, h, Option.getD_some]
  | normalize v fo => rw [walkExpr_normalize, h, Option.getD_some]
  | query q => rw [walkExpr_query, h, Option.getD_some]

mutual
theorem walkIdemExpr (hlf : ∀ e r, lf e = some (.ok r) → lf r = some (.ok r)) (hno : ∀ e e', SameNode e e' → lf e = none → lf e' = none) (htb : ∀ t t', tb t = .ok t' → tb t' = .ok t') : ∀ (x x' : Expr), walkExpr lf tb x = .ok x' → walkExpr lf tb x' = .ok x'
  | .lit v t, x', h => by
    rw [walkExpr_lit] at h
    cases hsel : lf (.lit v t) with
    | some r =>
      rw [hsel] at h
      cases (show r = _ from h)
      exact walk_leaf (hlf _ _ hsel)
    | none =>
      rw [hsel, Option.getD_none] at h
      cases h
      rw [walkExpr_lit, hno _ _ (by constructor) hsel, Option.getD_none]
  | .field n tn t, x', h => by
    rw [walkExpr_field] at h
    cases hsel : lf (.field n tn t) with
    | some r =>
      rw [hsel] at h
      cases (show r = _ from h)
      exact walk_leaf (hlf _ _ hsel)
    | none =>
      rw [hsel, Option.getD_none] at h
      cases h
      rw [walkExpr_field, hno _ _ (by constructor) hsel, Option.getD_none]
  | .fieldOf n b t, x', h => by
    rw [walkExpr_fieldOf] at h
    cases hsel : lf (.fieldOf n b t) with
    | some r =>
      rw [hsel] at h
      cases (show r = _ from h)
      exact walk_leaf (hlf _ _ hsel)
    | none =>
      rw [hsel, Option.getD_none] at h
      obtain ⟨b', hb, h⟩ := bind_ok h
      cases h
      rw [walkExpr_fieldOf, hno _ _ (by constructor) hsel, Option.getD_none, walkIdemExpr hlf hno htb b b' hb]
      rfl
  | .alias v n, x', h => by
    rw [walkExpr_alias] at h
    cases hsel : lf (.alias v n) with
    | some r =>
      rw [hsel] at h
      cases (show r = _ from h)
      exact walk_leaf (hlf _ _ hsel)
    | none =>
      rw [hsel, Option.getD_none] at h
      obtain ⟨v', hv, h⟩ := bind_ok h
      cases h
      rw [walkExpr_alias, hno _ _ (by constructor) hsel, Option.getD_none, walkIdemExpr hlf hno htb v v' hv]
      rfl
  | .star tn t, x', h => by
    rw [walkExpr_star] at h
    cases hsel : lf (.star tn t) with
    | some r =>
      rw [hsel] at h
      cases (show r = _ from h)
      exact walk_leaf (hlf _ _ hsel)
    | none =>
      rw [hsel, Option.getD_none] at h
      cases h
      rw [walkExpr_star, hno _ _ (by constructor) hsel, Option.getD_none]
  | .starOf b t, x', h => by
    rw [walkExpr_starOf] at h
    cases hsel : lf (.starOf b t) with
    | some r =>
      rw [hsel] at h
      cases (show r = _ from h)
      exact walk_leaf (hlf _ _ hsel)
    | none =>
      rw [hsel, Option.getD_none] at h
      obtain ⟨b', hb, h⟩ := bind_ok h
      cases h
      rw [walkExpr_starOf, hno _ _ (by constructor) hsel, Option.getD_none, walkIdemExpr hlf hno htb b b' hb]
      rfl
  | .aliasedStar s as, x', h => by
    rw [walkExpr_aliasedStar] at h
    cases hsel : lf (.aliasedStar s as) with
    | some r =>
      rw [hsel] at h
      cases (show r = _ from h)
      exact walk_leaf (hlf _ _ hsel)
    | none =>
      rw [hsel, Option.getD_none] at h
      obtain ⟨s', hs, h⟩ := bind_ok h
      cases h
      rw [walkExpr_aliasedStar, hno _ _ (by constructor) hsel, Option.getD_none, walkIdemExpr hlf hno htb s s' hs]
      rfl
  | .var n, x', h => by
    rw [walkExpr_var] at h
    cases hsel : lf (.var n) with
    | some r =>
      rw [hsel] at h
      cases (show r = _ from h)
      exact walk_leaf (hlf _ _ hsel)
    | none =>
      rw [hsel, Option.getD_none] at h
      cases h
      rw [walkExpr_var, hno _ _ (by constructor) hsel, Option.getD_none]
  | .lam ins b, x', h => by
    rw [walkExpr_lam] at h
    cases hsel : lf (.lam ins b) with
    | some r =>
      rw [hsel] at h
      cases (show r = _ from h)
      exact walk_leaf (hlf _ _ hsel)
    | none =>
      rw [hsel, Option.getD_none] at h
      obtain ⟨b', hb, h⟩ := bind_ok h
      cases h
      rw [walkExpr_lam, hno _ _ (by constructor) hsel, Option.getD_none, walkIdemExpr hlf hno htb b b' hb]
      rfl
  | .un op v, x', h => by
    rw [walkExpr_un] at h
    cases hsel : lf (.un op v) with
    | some r =>
      rw [hsel] at h
      cases (show r = _ from h)
      exact walk_leaf (hlf _ _ hsel)
    | none =>
      rw [hsel, Option.getD_none] at h
      obtain ⟨v', hv, h⟩ := bind_ok h
      cases h
      rw [walkExpr_un, hno _ _ (by constructor) hsel, Option.getD_none, walkIdemExpr hlf hno htb v v' hv]
      rfl
  | .bin op l r, x', h => by
    rw [walkExpr_bin] at h
    cases hsel : lf (.bin op l r) with
    | some r =>
      rw [hsel] at h
      cases (show r = _ from h)
      exact walk_leaf (hlf _ _ hsel)
    | none =>
      rw [hsel, Option.getD_none] at h
      obtain ⟨l', hl, h⟩ := bind_ok h
      obtain ⟨r', hr, h⟩ := bind_ok h
      cases h
      rw [walkExpr_bin, hno _ _ (by constructor) hsel, Option.getD_none, walkIdemExpr hlf hno htb l l' hl, walkIdemExpr hlf hno htb r r' hr]
      rfl
  | .not v, x', h => by
    rw [walkExpr_not] at h
    cases hsel : lf (.not v) with
    | some r =>
      rw [hsel] at h
      cases (show r = _ from h)
      exact walk_leaf (hlf _ _ hsel)
    | none =>
      rw [hsel, Option.getD_none] at h
      obtain ⟨v', hv, h⟩ := bind_ok h
      cases h
      rw [walkExpr_not, hno _ _ (by constructor) hsel, Option.getD_none, walkIdemExpr hlf hno htb v v' hv]
      rfl
  | .isNull v, x', h => by
    rw [walkExpr_isNull] at h
    cases hsel : lf (.isNull v) with
    | some r =>
      rw [hsel] at h
      cases (show r = _ from h)
      exact walk_leaf (hlf _ _ hsel)
    | none =>
      rw [hsel, Option.getD_none] at h
      obtain ⟨v', hv, h⟩ := bind_ok h
      cases h
      rw [walkExpr_isNull, hno _ _ (by constructor) hsel, Option.getD_none, walkIdemExpr hlf hno htb v v' hv]
      rfl
  | .between v l u, x', h => by
    rw [walkExpr_between] at h
    cases hsel : lf (.between v l u) with
    | some r =>
      rw [hsel] at h
      cases (show r = _ from h)
      exact walk_leaf (hlf _ _ hsel)
    | none =>
      rw [hsel, Option.getD_none] at h
      obtain ⟨v', hv, h⟩ := bind_ok h
      obtain ⟨l', hl, h⟩ := bind_ok h
      obtain ⟨u', hu, h⟩ := bind_ok h
      cases h
      rw [walkExpr_between, hno _ _ (by constructor) hsel, Option.getD_none, walkIdemExpr hlf hno htb v v' hv, walkIdemExpr hlf hno htb l l' hl, walkIdemExpr hlf hno htb u u' hu]
      rfl
  | .array vs, x', h => by
    rw [walkExpr_array] at h
    cases hsel : lf (.array vs) with
    | some r =>
      rw [hsel] at h
      cases (show r = _ from h)
      exact walk_leaf (hlf _ _ hsel)
    | none =>
      rw [hsel, Option.getD_none] at h
      obtain ⟨vs', hvs, h⟩ := bind_ok h
      cases h
      rw [walkExpr_array, hno _ _ (by constructor) hsel, Option.getD_none, walkIdemExprs hlf hno htb vs vs' hvs]
      rfl
  | .inQuery v q, x', h => by
    rw [walkExpr_inQuery] at h
    cases hsel : lf (.inQuery v q) with
    | some r =>
      rw [hsel] at h
      cases (show r = _ from h)
      exact walk_leaf (hlf _ _ hsel)
    | none =>
      rw [hsel, Option.getD_none] at h
      obtain ⟨v', hv, h⟩ := bind_ok h
      obtain ⟨q', hq, h⟩ := bind_ok h
      cases h
      rw [walkExpr_inQuery, hno _ _ (by constructor) hsel, Option.getD_none, walkIdemExpr hlf hno htb v v' hv, walkIdemQuery hlf hno htb q q' hq]
      rfl
  | .inList v es, x', h => by
    rw [walkExpr_inList] at h
    cases hsel : lf (.inList v es) with
    | some r =>
      rw [hsel] at h
      cases (show r = _ from h)
      exact walk_leaf (hlf _ _ hsel)
    | none =>
      rw [hsel, Option.getD_none] at h
      obtain ⟨v', hv, h⟩ := bind_ok h
      obtain ⟨es', hes, h⟩ := bind_ok h
      cases h
      rw [walkExpr_inList, hno _ _ (by constructor) hsel, Option.getD_none, walkIdemExpr hlf hno htb v v' hv, walkIdemExprs hlf hno htb es es' hes]
      rfl
  | .like v p e, x', h => by
    rw [walkExpr_like] at h
    cases hsel : lf (.like v p e) with
    | some r =>
      rw [hsel] at h
      cases (show r = _ from h)
      exact walk_leaf (hlf _ _ hsel)
    | none =>
      rw [hsel, Option.getD_none] at h
      obtain ⟨v', hv, h⟩ := bind_ok h
      obtain ⟨p', hp, h⟩ := bind_ok h
      obtain ⟨e', he, h⟩ := bind_ok h
      cases h
      rw [walkExpr_like, hno _ _ (by constructor) hsel, Option.getD_none, walkIdemExpr hlf hno htb v v' hv, walkIdemExpr hlf hno htb p p' hp, walkIdemExprOpt hlf hno htb e e' he]
      rfl
  | .typeCtor v t, x', h => by
    rw [walkExpr_typeCtor] at h
    cases hsel : lf (.typeCtor v t) with
    | some r =>
      rw [hsel] at h
      cases (show r = _ from h)
      exact walk_leaf (hlf _ _ hsel)
    | none =>
      rw [hsel, Option.getD_none] at h
      cases h
      rw [walkExpr_typeCtor, hno _ _ (by constructor) hsel, Option.getD_none]
  | .row vs, x', h => by
    rw [walkExpr_row] at h
    cases hsel : lf (.row vs) with
    | some r =>
      rw [hsel] at h
      cases (show r = _ from h)
      exact walk_leaf (hlf _ _ hsel)
    | none =>
      rw [hsel, Option.getD_none] at h
      obtain ⟨vs', hvs, h⟩ := bind_ok h
      cases h
      rw [walkExpr_row, hno _ _ (by constructor) hsel, Option.getD_none, walkIdemExprs hlf hno htb vs vs' hvs]
      rfl
  | .interval v f t, x', h => by
    rw [walkExpr_interval] at h
    cases hsel : lf (.interval v f t) with
    | some r =>
      rw [hsel] at h
      cases (show r = _ from h)
      exact walk_leaf (hlf _ _ hsel)
    | none =>
      rw [hsel, Option.getD_none] at h
      cases h
      rw [walkExpr_interval, hno _ _ (by constructor) hsel, Option.getD_none]
  | .cast tr e t, x', h => by
    rw [walkExpr_cast] at h
    cases hsel : lf (.cast tr e t) with
    | some r =>
      rw [hsel] at h
      cases (show r = _ from h)
      exact walk_leaf (hlf _ _ hsel)
    | none =>
      rw [hsel, Option.getD_none] at h
      obtain ⟨e', he, h⟩ := bind_ok h
      cases h
      rw [walkExpr_cast, hno _ _ (by constructor) hsel, Option.getD_none, walkIdemExpr hlf hno htb e e' he]
      rfl
  | .subscript v i, x', h => by
    rw [walkExpr_subscript] at h
    cases hsel : lf (.subscript v i) with
    | some r =>
      rw [hsel] at h
      cases (show r = _ from h)
      exact walk_leaf (hlf _ _ hsel)
    | none =>
      rw [hsel, Option.getD_none] at h
      obtain ⟨v', hv, h⟩ := bind_ok h
      obtain ⟨i', hi, h⟩ := bind_ok h
      cases h
      rw [walkExpr_subscript, hno _ _ (by constructor) hsel, Option.getD_none, walkIdemExpr hlf hno htb v v' hv, walkIdemExpr hlf hno htb i i' hi]
      rfl
  | .case v bs e, x', h => by
    rw [walkExpr_case] at h
    cases hsel : lf (.case v bs e) with
    | some r =>
      rw [hsel] at h
      cases (show r = _ from h)
      exact walk_leaf (hlf _ _ hsel)
    | none =>
      rw [hsel, Option.getD_none] at h
      obtain ⟨v', hv, h⟩ := bind_ok h
      obtain ⟨bs', hbs, h⟩ := bind_ok h
      obtain ⟨e', he, h⟩ := bind_ok h
      cases h
      rw [walkExpr_case, hno _ _ (by constructor) hsel, Option.getD_none, walkIdemExprOpt hlf hno htb v v' hv, walkIdemWhens hlf hno htb bs bs' hbs, walkIdemExprOpt hlf hno htb e e' he]
      rfl
  | .func f as, x', h => by
    rw [walkExpr_func] at h
    cases hsel : lf (.func f as) with
    | some r =>
      rw [hsel] at h
      cases (show r = _ from h)
      exact walk_leaf (hlf _ _ hsel)
    | none =>
      rw [hsel, Option.getD_none] at h
      obtain ⟨as', has, h⟩ := bind_ok h
      cases h
      rw [walkExpr_func, hno _ _ (by constructor) hsel, Option.getD_none, walkIdemExprs hlf hno htb as as' has]
      rfl
  | .agg f as ob fl w ign, x', h => by
    rw [walkExpr_agg] at h
    cases hsel : lf (.agg f as ob fl w ign) with
    | some r =>
      rw [hsel] at h
      cases (show r = _ from h)
      exact walk_leaf (hlf _ _ hsel)
    | none =>
      rw [hsel, Option.getD_none] at h
      obtain ⟨as', has, h⟩ := bind_ok h
      obtain ⟨ob', hob, h⟩ := bind_ok h
      obtain ⟨fl', hfl, h⟩ := bind_ok h
      obtain ⟨w', hw, h⟩ := bind_ok h
      cases h
      rw [walkExpr_agg, hno _ _ (by constructor) hsel, Option.getD_none, walkIdemExprs hlf hno htb as as' has, walkIdemOrds hlf hno htb ob ob' hob, walkIdemExprOpt hlf hno htb fl fl' hfl, walkIdemWinOpt hlf hno htb w w' hw]
      rfl
  | .listagg v sep ov ob, x', h => by
    rw [walkExpr_listagg] at h
    cases hsel : lf (.listagg v sep ov ob) with
    | some r =>
      rw [hsel] at h
      cases (show r = _ from h)
      exact walk_leaf (hlf _ _ hsel)
    | none =>
      rw [hsel, Option.getD_none] at h
      obtain ⟨v', hv, h⟩ := bind_ok h
      obtain ⟨ob', hob, h⟩ := bind_ok h
      cases h
      rw [walkExpr_listagg, hno _ _ (by constructor) hsel, Option.getD_none, walkIdemExpr hlf hno htb v v' hv, walkIdemOrds hlf hno htb ob ob' hob]
      rfl
  | .curTime f p, x', h => by
    rw [walkExpr_curTime] at h
    cases hsel : lf (.curTime f p) with
    | some r =>
      rw [hsel] at h
      cases (show r = _ from h)
      exact walk_leaf (hlf _ _ hsel)
    | none =>
      rw [hsel, Option.getD_none] at h
      cases h
      rw [walkExpr_curTime, hno _ _ (by constructor) hsel, Option.getD_none]
  | .session f, x', h => by
    rw [walkExpr_session] at h
    cases hsel : lf (.session f) with
    | some r =>
      rw [hsel] at h
      cases (show r = _ from h)
      exact walk_leaf (hlf _ _ hsel)
    | none =>
      rw [hsel, Option.getD_none] at h
      cases h
      rw [walkExpr_session, hno _ _ (by constructor) hsel, Option.getD_none]
  | .normalize v fo, x', h => by
    rw [walkExpr_normalize] at h
    cases hsel : lf (.normalize v fo) with
    | some r =>
      rw [hsel] at h
      cases (show r = _ from h)
      exact walk_leaf (hlf _ _ hsel)
    | none =>
      rw [hsel, Option.getD_none] at h
      obtain ⟨v', hv, h⟩ := bind_ok h
      cases h
      rw [walkExpr_normalize, hno _ _ (by constructor) hsel, Option.getD_none, walkIdemExpr hlf hno htb v v' hv]
      rfl
  | .query q, x', h => by
    rw [walkExpr_query] at h
    cases hsel : lf (.query q) with
    | some r =>
      rw [hsel] at h
      cases (show r = _ from h)
      exact walk_leaf (hlf _ _ hsel)
    | none =>
      rw [hsel, Option.getD_none] at h
      obtain ⟨q', hq, h⟩ := bind_ok h
      cases h
      rw [walkExpr_query, hno _ _ (by constructor) hsel, Option.getD_none, walkIdemQuery hlf hno htb q q' hq]
      rfl
theorem walkIdemOrd (hlf : ∀ e r, lf e = some (.ok r) → lf r = some (.ok r)) (hno : ∀ e e', SameNode e e' → lf e = none → lf e' = none) (htb : ∀ t t', tb t = .ok t' → tb t' = .ok t') : ∀ (x x' : Ord), walkOrd lf tb x = .ok x' → walkOrd lf tb x' = .ok x'
  | .mk v d nf, x', h => by
    rw [walkOrd_mk] at h
    obtain ⟨v', hv, h⟩ := bind_ok h
    cases h
    rw [walkOrd_mk, walkIdemExpr hlf hno htb v v' hv]
    rfl
theorem walkIdemBound (hlf : ∀ e r, lf e = some (.ok r) → lf r = some (.ok r)) (hno : ∀ e e', SameNode e e' → lf e = none → lf e' = none) (htb : ∀ t t', tb t = .ok t' → tb t' = .ok t') : ∀ (x x' : Bound), walkBound lf tb x = .ok x' → walkBound lf tb x' = .ok x'
  | .bounded t e, x', h => by
    rw [walkBound_bounded] at h
    obtain ⟨e', he, h⟩ := bind_ok h
    cases h
    rw [walkBound_bounded, walkIdemExpr hlf hno htb e e' he]
    rfl
  | .unbounded t, x', h => by
    rw [walkBound_unbounded] at h
    cases h
    rw [walkBound_unbounded]
  | .current, x', h => by
    rw [walkBound_current] at h
    cases h
    rw [walkBound_current]
theorem walkIdemWin (hlf : ∀ e r, lf e = some (.ok r) → lf r = some (.ok r)) (hno : ∀ e e', SameNode e e' → lf e = none → lf e' = none) (htb : ∀ t t', tb t = .ok t' → tb t' = .ok t') : ∀ (x x' : Win), walkWin lf tb x = .ok x' → walkWin lf tb x' = .ok x'
  | .mk p ob ps f st en, x', h => by
    rw [walkWin_mk] at h
    obtain ⟨ob', hob, h⟩ := bind_ok h
    obtain ⟨ps', hps, h⟩ := bind_ok h
    obtain ⟨st', hst, h⟩ := bind_ok h
    obtain ⟨en', hen, h⟩ := bind_ok h
    cases h
    rw [walkWin_mk, walkIdemOrds hlf hno htb ob ob' hob, walkIdemExprs hlf hno htb ps ps' hps, walkIdemBound hlf hno htb st st' hst, walkIdemBound hlf hno htb en en' hen]
    rfl
theorem walkIdemGrp (hlf : ∀ e r, lf e = some (.ok r) → lf r = some (.ok r)) (hno : ∀ e e', SameNode e e' → lf e = none → lf e' = none) (htb : ∀ t t', tb t = .ok t' → tb t' = .ok t') : ∀ (x x' : Grp), walkGrp lf tb x = .ok x' → walkGrp lf tb x' = .ok x'
  | .set vs, x', h => by
    rw [walkGrp_set] at h
    obtain ⟨vs', hvs, h⟩ := bind_ok h
    cases h
    rw [walkGrp_set, walkIdemExprs hlf hno htb vs vs' hvs]
    rfl
  | .sets gs, x', h => by
    rw [walkGrp_sets] at h
    obtain ⟨gs', hgs, h⟩ := bind_ok h
    cases h
    rw [walkGrp_sets, walkIdemLists hlf hno htb gs gs' hgs]
    rfl
  | .cube vs, x', h => by
    rw [walkGrp_cube] at h
    obtain ⟨vs', hvs, h⟩ := bind_ok h
    cases h
    rw [walkGrp_cube, walkIdemExprs hlf hno htb vs vs' hvs]
    rfl
  | .rollup vs, x', h => by
    rw [walkGrp_rollup] at h
    obtain ⟨vs', hvs, h⟩ := bind_ok h
    cases h
    rw [walkGrp_rollup, walkIdemExprs hlf hno htb vs vs' hvs]
    rfl
theorem walkIdemGroupBy (hlf : ∀ e r, lf e = some (.ok r) → lf r = some (.ok r)) (hno : ∀ e e', SameNode e e' → lf e = none → lf e' = none) (htb : ∀ t t', tb t = .ok t' → tb t' = .ok t') : ∀ (x x' : GroupBy), walkGroupBy lf tb x = .ok x' → walkGroupBy lf tb x' = .ok x'
  | .mk gs d, x', h => by
    rw [walkGroupBy_mk] at h
    obtain ⟨gs', hgs, h⟩ := bind_ok h
    cases h
    rw [walkGroupBy_mk, walkIdemGrps hlf hno htb gs gs' hgs]
    rfl
theorem walkIdemQuery (hlf : ∀ e r, lf e = some (.ok r) → lf r = some (.ok r)) (hno : ∀ e e', SameNode e e' → lf e = none → lf e' = none) (htb : ∀ t t', tb t = .ok t' → tb t' = .ok t') : ∀ (x x' : Query), walkQuery lf tb x = .ok x' → walkQuery lf tb x' = .ok x'
  | .mk b off lim ob w, x', h => by
    rw [walkQuery_mk] at h
    obtain ⟨b', hb, h⟩ := bind_ok h
    obtain ⟨ob', hob, h⟩ := bind_ok h
    obtain ⟨w', hw, h⟩ := bind_ok h
    cases h
    rw [walkQuery_mk, walkIdemQBody hlf hno htb b b' hb, walkIdemOrds hlf hno htb ob ob' hob, walkIdemNameds hlf hno htb w w' hw]
    rfl
theorem walkIdemQBody (hlf : ∀ e r, lf e = some (.ok r) → lf r = some (.ok r)) (hno : ∀ e e', SameNode e e' → lf e = none → lf e' = none) (htb : ∀ t t', tb t = .ok t' → tb t' = .ok t') : ∀ (x x' : QBody), walkQBody lf tb x = .ok x' → walkQBody lf tb x' = .ok x'
  | .select items fr wh gb hv d wins, x', h => by
    rw [walkQBody_select] at h
    obtain ⟨items', hitems, h⟩ := bind_ok h
    obtain ⟨fr', hfr, h⟩ := bind_ok h
    obtain ⟨wh', hwh, h⟩ := bind_ok h
    obtain ⟨gb', hgb, h⟩ := bind_ok h
    obtain ⟨hv', hhv, h⟩ := bind_ok h
    obtain ⟨wins', hwins, h⟩ := bind_ok h
    cases h
    rw [walkQBody_select, walkIdemExprs hlf hno htb items items' hitems, walkIdemRelOpt hlf hno htb fr fr' hfr, walkIdemExprOpt hlf hno htb wh wh' hwh, walkIdemGroupByOpt hlf hno htb gb gb' hgb, walkIdemExprOpt hlf hno htb hv hv' hhv, walkIdemNamedWins hlf hno htb wins wins' hwins]
    rfl
  | .set k l r d, x', h => by
    rw [walkQBody_set] at h
    obtain ⟨l', hl, h⟩ := bind_ok h
    obtain ⟨r', hr, h⟩ := bind_ok h
    cases h
    rw [walkQBody_set, walkIdemQuery hlf hno htb l l' hl, walkIdemQuery hlf hno htb r r' hr]
    rfl
  | .table t, x', h => by
    rw [walkQBody_table] at h
    obtain ⟨t', ht, h⟩ := bind_ok h
    cases h
    rw [walkQBody_table, htb t t' ht]
    rfl
  | .values es, x', h => by
    rw [walkQBody_values] at h
    obtain ⟨es', hes, h⟩ := bind_ok h
    cases h
    rw [walkQBody_values, walkIdemExprs hlf hno htb es es' hes]
    rfl
theorem walkIdemNamed (hlf : ∀ e r, lf e = some (.ok r) → lf r = some (.ok r)) (hno : ∀ e e', SameNode e e' → lf e = none → lf e' = none) (htb : ∀ t t', tb t = .ok t' → tb t' = .ok t') : ∀ (x x' : Named), walkNamed lf tb x = .ok x' → walkNamed lf tb x' = .ok x'
  | .mk r a cols, x', h => by
    rw [walkNamed_mk] at h
    obtain ⟨r', hr, h⟩ := bind_ok h
    cases h
    rw [walkNamed_mk, walkIdemRel hlf hno htb r r' hr]
    rfl
theorem walkIdemRel (hlf : ∀ e r, lf e = some (.ok r) → lf r = some (.ok r)) (hno : ∀ e e', SameNode e e' → lf e = none → lf e' = none) (htb : ∀ t t', tb t = .ok t' → tb t' = .ok t') : ∀ (x x' : Rel), walkRel lf tb x = .ok x' → walkRel lf tb x' = .ok x'
  | .table t, x', h => by
    rw [walkRel_table] at h
    obtain ⟨t', ht, h⟩ := bind_ok h
    cases h
    rw [walkRel_table, htb t t' ht]
    rfl
  | .query q, x', h => by
    rw [walkRel_query] at h
    obtain ⟨q', hq, h⟩ := bind_ok h
    cases h
    rw [walkRel_query, walkIdemQuery hlf hno htb q q' hq]
    rfl
  | .aliased n, x', h => by
    rw [walkRel_aliased] at h
    obtain ⟨n', hn, h⟩ := bind_ok h
    cases h
    rw [walkRel_aliased, walkIdemNamed hlf hno htb n n' hn]
    rfl
  | .join l r t nat cr, x', h => by
    rw [walkRel_join] at h
    obtain ⟨l', hl, h⟩ := bind_ok h
    obtain ⟨r', hr, h⟩ := bind_ok h
    obtain ⟨cr', hcr, h⟩ := bind_ok h
    cases h
    rw [walkRel_join, walkIdemRel hlf hno htb l l' hl, walkIdemRel hlf hno htb r r' hr, walkIdemCritOpt hlf hno htb cr cr' hcr]
    rfl
  | .unnest as ord, x', h => by
    rw [walkRel_unnest] at h
    obtain ⟨as', has, h⟩ := bind_ok h
    cases h
    rw [walkRel_unnest, walkIdemExprs hlf hno htb as as' has]
    rfl
  | .lateral q, x', h => by
    rw [walkRel_lateral] at h
    obtain ⟨q', hq, h⟩ := bind_ok h
    cases h
    rw [walkRel_lateral, walkIdemQuery hlf hno htb q q' hq]
    rfl
  | .sample r t p, x', h => by
    rw [walkRel_sample] at h
    obtain ⟨r', hr, h⟩ := bind_ok h
    obtain ⟨p', hp, h⟩ := bind_ok h
    cases h
    rw [walkRel_sample, walkIdemRel hlf hno htb r r' hr, walkIdemExpr hlf hno htb p p' hp]
    rfl
theorem walkIdemCrit (hlf : ∀ e r, lf e = some (.ok r) → lf r = some (.ok r)) (hno : ∀ e e', SameNode e e' → lf e = none → lf e' = none) (htb : ∀ t t', tb t = .ok t' → tb t' = .ok t') : ∀ (x x' : Crit), walkCrit lf tb x = .ok x' → walkCrit lf tb x' = .ok x'
  | .using cols, x', h => by
    rw [walkCrit_using] at h
    cases h
    rw [walkCrit_using]
  | .on e, x', h => by
    rw [walkCrit_on] at h
    obtain ⟨e', he, h⟩ := bind_ok h
    cases h
    rw [walkCrit_on, walkIdemExpr hlf hno htb e e' he]
    rfl
theorem walkIdemExprOpt (hlf : ∀ e r, lf e = some (.ok r) → lf r = some (.ok r)) (hno : ∀ e e', SameNode e e' → lf e = none → lf e' = none) (htb : ∀ t t', tb t = .ok t' → tb t' = .ok t') : ∀ (x x' : Option Expr), walkExprOpt lf tb x = .ok x' → walkExprOpt lf tb x' = .ok x'
  | none, x', h => by
    rw [walkExprOpt_none] at h
    cases h
    rw [walkExprOpt_none]
  | some x, x', h => by
    rw [walkExprOpt_some] at h
    obtain ⟨x', hx, h⟩ := bind_ok h
    cases h
    rw [walkExprOpt_some, walkIdemExpr hlf hno htb x x' hx]
    rfl
theorem walkIdemExprs (hlf : ∀ e r, lf e = some (.ok r) → lf r = some (.ok r)) (hno : ∀ e e', SameNode e e' → lf e = none → lf e' = none) (htb : ∀ t t', tb t = .ok t' → tb t' = .ok t') : ∀ (x x' : List Expr), walkExprs lf tb x = .ok x' → walkExprs lf tb x' = .ok x'
  | [], x', h => by
    rw [walkExprs_nil] at h
    cases h
    rw [walkExprs_nil]
  | x :: xs, x', h => by
    rw [walkExprs_cons] at h
    obtain ⟨x', hx, h⟩ := bind_ok h
    obtain ⟨xs', hxs, h⟩ := bind_ok h
    cases h
    rw [walkExprs_cons, walkIdemExpr hlf hno htb x x' hx, walkIdemExprs hlf hno htb xs xs' hxs]
    rfl
theorem walkIdemLists (hlf : ∀ e r, lf e = some (.ok r) → lf r = some (.ok r)) (hno : ∀ e e', SameNode e e' → lf e = none → lf e' = none) (htb : ∀ t t', tb t = .ok t' → tb t' = .ok t') : ∀ (x x' : List (List Expr)), walkLists lf tb x = .ok x' → walkLists lf tb x' = .ok x'
  | [], x', h => by
    rw [walkLists_nil] at h
    cases h
    rw [walkLists_nil]
  | x :: xs, x', h => by
    rw [walkLists_cons] at h
    obtain ⟨x', hx, h⟩ := bind_ok h
    obtain ⟨xs', hxs, h⟩ := bind_ok h
    cases h
    rw [walkLists_cons, walkIdemExprs hlf hno htb x x' hx, walkIdemLists hlf hno htb xs xs' hxs]
    rfl
theorem walkIdemWhens (hlf : ∀ e r, lf e = some (.ok r) → lf r = some (.ok r)) (hno : ∀ e e', SameNode e e' → lf e = none → lf e' = none) (htb : ∀ t t', tb t = .ok t' → tb t' = .ok t') : ∀ (x x' : List (Expr × Expr)), walkWhens lf tb x = .ok x' → walkWhens lf tb x' = .ok x'
  | [], x', h => by
    rw [walkWhens_nil] at h
    cases h
    rw [walkWhens_nil]
  | (c, v) :: xs, x', h => by
    rw [walkWhens_cons] at h
    obtain ⟨c', hc, h⟩ := bind_ok h
    obtain ⟨v', hv, h⟩ := bind_ok h
    obtain ⟨xs', hxs, h⟩ := bind_ok h
    cases h
    rw [walkWhens_cons, walkIdemExpr hlf hno htb c c' hc, walkIdemExpr hlf hno htb v v' hv, walkIdemWhens hlf hno htb xs xs' hxs]
    rfl
theorem walkIdemOrds (hlf : ∀ e r, lf e = some (.ok r) → lf r = some (.ok r)) (hno : ∀ e e', SameNode e e' → lf e = none → lf e' = none) (htb : ∀ t t', tb t = .ok t' → tb t' = .ok t') : ∀ (x x' : List Ord), walkOrds lf tb x = .ok x' → walkOrds lf tb x' = .ok x'
  | [], x', h => by
    rw [walkOrds_nil] at h
    cases h
    rw [walkOrds_nil]
  | x :: xs, x', h => by
    rw [walkOrds_cons] at h
    obtain ⟨x', hx, h⟩ := bind_ok h
    obtain ⟨xs', hxs, h⟩ := bind_ok h
    cases h
    rw [walkOrds_cons, walkIdemOrd hlf hno htb x x' hx, walkIdemOrds hlf hno htb xs xs' hxs]
    rfl
theorem walkIdemWinOpt (hlf : ∀ e r, lf e = some (.ok r) → lf r = some (.ok r)) (hno : ∀ e e', SameNode e e' → lf e = none → lf e' = none) (htb : ∀ t t', tb t = .ok t' → tb t' = .ok t') : ∀ (x x' : Option Win), walkWinOpt lf tb x = .ok x' → walkWinOpt lf tb x' = .ok x'
  | none, x', h => by
    rw [walkWinOpt_none] at h
    cases h
    rw [walkWinOpt_none]
  | some x, x', h => by
    rw [walkWinOpt_some] at h
    obtain ⟨x', hx, h⟩ := bind_ok h
    cases h
    rw [walkWinOpt_some, walkIdemWin hlf hno htb x x' hx]
    rfl
theorem walkIdemGrps (hlf : ∀ e r, lf e = some (.ok r) → lf r = some (.ok r)) (hno : ∀ e e', SameNode e e' → lf e = none → lf e' = none) (htb : ∀ t t', tb t = .ok t' → tb t' = .ok t') : ∀ (x x' : List Grp), walkGrps lf tb x = .ok x' → walkGrps lf tb x' = .ok x'
  | [], x', h => by
    rw [walkGrps_nil] at h
    cases h
    rw [walkGrps_nil]
  | x :: xs, x', h => by
    rw [walkGrps_cons] at h
    obtain ⟨x', hx, h⟩ := bind_ok h
    obtain ⟨xs', hxs, h⟩ := bind_ok h
    cases h
    rw [walkGrps_cons, walkIdemGrp hlf hno htb x x' hx, walkIdemGrps hlf hno htb xs xs' hxs]
    rfl
theorem walkIdemGroupByOpt (hlf : ∀ e r, lf e = some (.ok r) → lf r = some (.ok r)) (hno : ∀ e e', SameNode e e' → lf e = none → lf e' = none) (htb : ∀ t t', tb t = .ok t' → tb t' = .ok t') : ∀ (x x' : Option GroupBy), walkGroupByOpt lf tb x = .ok x' → walkGroupByOpt lf tb x' = .ok x'
  | none, x', h => by
    rw [walkGroupByOpt_none] at h
    cases h
    rw [walkGroupByOpt_none]
  | some x, x', h => by
    rw [walkGroupByOpt_some] at h
    obtain ⟨x', hx, h⟩ := bind_ok h
    cases h
    rw [walkGroupByOpt_some, walkIdemGroupBy hlf hno htb x x' hx]
    rfl
theorem walkIdemNamedWins (hlf : ∀ e r, lf e = some (.ok r) → lf r = some (.ok r)) (hno : ∀ e e', SameNode e e' → lf e = none → lf e' = none) (htb : ∀ t t', tb t = .ok t' → tb t' = .ok t') : ∀ (x x' : List (Str × Win)), walkNamedWins lf tb x = .ok x' → walkNamedWins lf tb x' = .ok x'
  | [], x', h => by
    rw [walkNamedWins_nil] at h
    cases h
    rw [walkNamedWins_nil]
  | (n, w) :: xs, x', h => by
    rw [walkNamedWins_cons] at h
    obtain ⟨w', hw, h⟩ := bind_ok h
    obtain ⟨xs', hxs, h⟩ := bind_ok h
    cases h
    rw [walkNamedWins_cons, walkIdemWin hlf hno htb w w' hw, walkIdemNamedWins hlf hno htb xs xs' hxs]
    rfl
theorem walkIdemNameds (hlf : ∀ e r, lf e = some (.ok r) → lf r = some (.ok r)) (hno : ∀ e e', SameNode e e' → lf e = none → lf e' = none) (htb : ∀ t t', tb t = .ok t' → tb t' = .ok t') : ∀ (x x' : List Named), walkNameds lf tb x = .ok x' → walkNameds lf tb x' = .ok x'
  | [], x', h => by
    rw [walkNameds_nil] at h
    cases h
    rw [walkNameds_nil]
  | x :: xs, x', h => by
    rw [walkNameds_cons] at h
    obtain ⟨x', hx, h⟩ := bind_ok h
    obtain ⟨xs', hxs, h⟩ := bind_ok h
    cases h
    rw [walkNameds_cons, walkIdemNamed hlf hno htb x x' hx, walkIdemNameds hlf hno htb xs xs' hxs]
    rfl
theorem walkIdemRelOpt (hlf : ∀ e r, lf e = some (.ok r) → lf r = some (.ok r)) (hno : ∀ e e', SameNode e e' → lf e = none → lf e' = none) (htb : ∀ t t', tb t = .ok t' → tb t' = .ok t') : ∀ (x x' : Option Rel), walkRelOpt lf tb x = .ok x' → walkRelOpt lf tb x' = .ok x'
  | none, x', h => by
    rw [walkRelOpt_none] at h
    cases h
    rw [walkRelOpt_none]
  | some x, x', h => by
    rw [walkRelOpt_some] at h
    obtain ⟨x', hx, h⟩ := bind_ok h
    cases h
    rw [walkRelOpt_some, walkIdemRel hlf hno htb x x' hx]
    rfl
theorem walkIdemCritOpt (hlf : ∀ e r, lf e = some (.ok r) → lf r = some (.ok r)) (hno : ∀ e e', SameNode e e' → lf e = none → lf e' = none) (htb : ∀ t t', tb t = .ok t' → tb t' = .ok t') : ∀ (x x' : Option Crit), walkCritOpt lf tb x = .ok x' → walkCritOpt lf tb x' = .ok x'
  | none, x', h => by
    rw [walkCritOpt_none] at h
    cases h
    rw [walkCritOpt_none]
  | some x, x', h => by
    rw [walkCritOpt_some] at h
    obtain ⟨x', hx, h⟩ := bind_ok h
    cases h
    rw [walkCritOpt_some, walkIdemCrit hlf hno htb x x' hx]
    rfl
end

end Treeno
