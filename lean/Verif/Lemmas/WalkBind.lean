import Verif.Lemmas.WalkEqs
import Verif.Lemmas.TypeText
import Verif.Spec.TreeMap
import Verif.Spec.Columns
import Verif.Spec.QueryText
/-!
# Facts about the generic traversal, for any replacement function

If the replacement function acts like `g`, the traversal acts like `mapExpr g`.  One statement per tree type; the proofs follow the definition of `walkExpr` arm by arm.
-/
set_option linter.unusedVariables false
set_option maxHeartbeats 1600000
namespace Treeno
open Spec

/-- The same node with possibly different children. -/
inductive Spec.SameNode : Expr → Expr → Prop
  | lit' {v} {t} : SameNode (.lit v t) (.lit v t)
  | field' {n} {tn} {t} : SameNode (.field n tn t) (.field n tn t)
  | fieldOf' {n} {b₁ b₂} {t} : SameNode (.fieldOf n b₁ t) (.fieldOf n b₂ t)
  | alias' {v₁ v₂} {n} : SameNode (.alias v₁ n) (.alias v₂ n)
  | star' {tn} {t} : SameNode (.star tn t) (.star tn t)
  | starOf' {b₁ b₂} {t} : SameNode (.starOf b₁ t) (.starOf b₂ t)
  | aliasedStar' {s₁ s₂} {as} : SameNode (.aliasedStar s₁ as) (.aliasedStar s₂ as)
  | var' {n} : SameNode (.var n) (.var n)
  | lam' {ins} {b₁ b₂} : SameNode (.lam ins b₁) (.lam ins b₂)
  | un' {op} {v₁ v₂} : SameNode (.un op v₁) (.un op v₂)
  | bin' {op} {l₁ l₂} {r₁ r₂} : SameNode (.bin op l₁ r₁) (.bin op l₂ r₂)
  | not' {v₁ v₂} : SameNode (.not v₁) (.not v₂)
  | isNull' {v₁ v₂} : SameNode (.isNull v₁) (.isNull v₂)
  | between' {v₁ v₂} {l₁ l₂} {u₁ u₂} : SameNode (.between v₁ l₁ u₁) (.between v₂ l₂ u₂)
  | array' {vs₁ vs₂} : SameNode (.array vs₁) (.array vs₂)
  | inQuery' {v₁ v₂} {q₁ q₂} : SameNode (.inQuery v₁ q₁) (.inQuery v₂ q₂)
  | inList' {v₁ v₂} {es₁ es₂} : SameNode (.inList v₁ es₁) (.inList v₂ es₂)
  | like' {v₁ v₂} {p₁ p₂} {e₁ e₂} : SameNode (.like v₁ p₁ e₁) (.like v₂ p₂ e₂)
  | typeCtor' {v} {t} : SameNode (.typeCtor v t) (.typeCtor v t)
  | row' {vs₁ vs₂} : SameNode (.row vs₁) (.row vs₂)
  | interval' {v} {f} {t} : SameNode (.interval v f t) (.interval v f t)
  | cast' {tr} {e₁ e₂} {t} : SameNode (.cast tr e₁ t) (.cast tr e₂ t)
  | subscript' {v₁ v₂} {i₁ i₂} : SameNode (.subscript v₁ i₁) (.subscript v₂ i₂)
  | case' {v₁ v₂} {bs₁ bs₂} {e₁ e₂} : SameNode (.case v₁ bs₁ e₁) (.case v₂ bs₂ e₂)
  | func' {f} {as₁ as₂} : SameNode (.func f as₁) (.func f as₂)
  | agg' {f} {as₁ as₂} {ob₁ ob₂} {fl₁ fl₂} {w₁ w₂} {ign} : SameNode (.agg f as₁ ob₁ fl₁ w₁ ign) (.agg f as₂ ob₂ fl₂ w₂ ign)
  | listagg' {v₁ v₂} {sep} {ov} {ob₁ ob₂} : SameNode (.listagg v₁ sep ov ob₁) (.listagg v₂ sep ov ob₂)
  | curTime' {f} {p} : SameNode (.curTime f p) (.curTime f p)
  | session' {f} : SameNode (.session f) (.session f)
  | normalize' {v₁ v₂} {fo} : SameNode (.normalize v₁ fo) (.normalize v₂ fo)
  | query' {q₁ q₂} : SameNode (.query q₁) (.query q₂)

variable {lf : Leaf} {tb : TabFn} {g : Expr → Expr} {tg : TableRef → TableRef}

mutual
theorem walkBindExpr (hlf : ∀ e r, lf e = some (.ok r) → r = mapExpr g tg e) (hg : ∀ e, lf e = none → ∀ e', Spec.SameNode e e' → g e' = e') (htb : ∀ t t', tb t = .ok t' → t' = tg t) : ∀ (x x' : Expr), walkExpr lf tb x = .ok x' → x' = mapExpr g tg x
  | .lit v t, x', h => by
    rw [walkExpr_lit] at h
    cases hsel : lf (.lit v t) with
    | some r =>
      rw [hsel] at h
      cases (show r = _ from h)
      exact hlf _ _ hsel
    | none =>
      rw [hsel, Option.getD_none] at h
      cases h
      exact (hg _ hsel _ (by constructor)).symm
  | .field n tn t, x', h => by
    rw [walkExpr_field] at h
    cases hsel : lf (.field n tn t) with
    | some r =>
      rw [hsel] at h
      cases (show r = _ from h)
      exact hlf _ _ hsel
    | none =>
      rw [hsel, Option.getD_none] at h
      cases h
      exact (hg _ hsel _ (by constructor)).symm
  | .fieldOf n b t, x', h => by
    rw [walkExpr_fieldOf] at h
    cases hsel : lf (.fieldOf n b t) with
    | some r =>
      rw [hsel] at h
      cases (show r = _ from h)
      exact hlf _ _ hsel
    | none =>
      rw [hsel, Option.getD_none] at h
      obtain ⟨b', hb, h⟩ := bind_ok h
      cases h
      rw [walkBindExpr hlf hg htb b b' hb]
      exact (hg _ hsel _ (by constructor)).symm
  | .alias v n, x', h => by
    rw [walkExpr_alias] at h
    cases hsel : lf (.alias v n) with
    | some r =>
      rw [hsel] at h
      cases (show r = _ from h)
      exact hlf _ _ hsel
    | none =>
      rw [hsel, Option.getD_none] at h
      obtain ⟨v', hv, h⟩ := bind_ok h
      cases h
      rw [walkBindExpr hlf hg htb v v' hv]
      exact (hg _ hsel _ (by constructor)).symm
  | .star tn t, x', h => by
    rw [walkExpr_star] at h
    cases hsel : lf (.star tn t) with
    | some r =>
      rw [hsel] at h
      cases (show r = _ from h)
      exact hlf _ _ hsel
    | none =>
      rw [hsel, Option.getD_none] at h
      cases h
      exact (hg _ hsel _ (by constructor)).symm
  | .starOf b t, x', h => by
    rw [walkExpr_starOf] at h
    cases hsel : lf (.starOf b t) with
    | some r =>
      rw [hsel] at h
      cases (show r = _ from h)
      exact hlf _ _ hsel
    | none =>
      rw [hsel, Option.getD_none] at h
      obtain ⟨b', hb, h⟩ := bind_ok h
      cases h
      rw [walkBindExpr hlf hg htb b b' hb]
      exact (hg _ hsel _ (by constructor)).symm
  | .aliasedStar s as, x', h => by
    rw [walkExpr_aliasedStar] at h
    cases hsel : lf (.aliasedStar s as) with
    | some r =>
      rw [hsel] at h
      cases (show r = _ from h)
      exact hlf _ _ hsel
    | none =>
      rw [hsel, Option.getD_none] at h
      obtain ⟨s', hs, h⟩ := bind_ok h
      cases h
      rw [walkBindExpr hlf hg htb s s' hs]
      exact (hg _ hsel _ (by constructor)).symm
  | .var n, x', h => by
    rw [walkExpr_var] at h
    cases hsel : lf (.var n) with
    | some r =>
      rw [hsel] at h
      cases (show r = _ from h)
      exact hlf _ _ hsel
    | none =>
      rw [hsel, Option.getD_none] at h
      cases h
      exact (hg _ hsel _ (by constructor)).symm
  | .lam ins b, x', h => by
    rw [walkExpr_lam] at h
    cases hsel : lf (.lam ins b) with
    | some r =>
      rw [hsel] at h
      cases (show r = _ from h)
      exact hlf _ _ hsel
    | none =>
      rw [hsel, Option.getD_none] at h
      obtain ⟨b', hb, h⟩ := bind_ok h
      cases h
      rw [walkBindExpr hlf hg htb b b' hb]
      exact (hg _ hsel _ (by constructor)).symm
  | .un op v, x', h => by
    rw [walkExpr_un] at h
    cases hsel : lf (.un op v) with
    | some r =>
      rw [hsel] at h
      cases (show r = _ from h)
      exact hlf _ _ hsel
    | none =>
      rw [hsel, Option.getD_none] at h
      obtain ⟨v', hv, h⟩ := bind_ok h
      cases h
      rw [walkBindExpr hlf hg htb v v' hv]
      exact (hg _ hsel _ (by constructor)).symm
  | .bin op l r, x', h => by
    rw [walkExpr_bin] at h
    cases hsel : lf (.bin op l r) with
    | some r =>
      rw [hsel] at h
      cases (show r = _ from h)
      exact hlf _ _ hsel
    | none =>
      rw [hsel, Option.getD_none] at h
      obtain ⟨l', hl, h⟩ := bind_ok h
      obtain ⟨r', hr, h⟩ := bind_ok h
      cases h
      rw [walkBindExpr hlf hg htb l l' hl, walkBindExpr hlf hg htb r r' hr]
      exact (hg _ hsel _ (by constructor)).symm
  | .not v, x', h => by
    rw [walkExpr_not] at h
    cases hsel : lf (.not v) with
    | some r =>
      rw [hsel] at h
      cases (show r = _ from h)
      exact hlf _ _ hsel
    | none =>
      rw [hsel, Option.getD_none] at h
      obtain ⟨v', hv, h⟩ := bind_ok h
      cases h
      rw [walkBindExpr hlf hg htb v v' hv]
      exact (hg _ hsel _ (by constructor)).symm
  | .isNull v, x', h => by
    rw [walkExpr_isNull] at h
    cases hsel : lf (.isNull v) with
    | some r =>
      rw [hsel] at h
      cases (show r = _ from h)
      exact hlf _ _ hsel
    | none =>
      rw [hsel, Option.getD_none] at h
      obtain ⟨v', hv, h⟩ := bind_ok h
      cases h
      rw [walkBindExpr hlf hg htb v v' hv]
      exact (hg _ hsel _ (by constructor)).symm
  | .between v l u, x', h => by
    rw [walkExpr_between] at h
    cases hsel : lf (.between v l u) with
    | some r =>
      rw [hsel] at h
      cases (show r = _ from h)
      exact hlf _ _ hsel
    | none =>
      rw [hsel, Option.getD_none] at h
      obtain ⟨v', hv, h⟩ := bind_ok h
      obtain ⟨l', hl, h⟩ := bind_ok h
      obtain ⟨u', hu, h⟩ := bind_ok h
      cases h
      rw [walkBindExpr hlf hg htb v v' hv, walkBindExpr hlf hg htb l l' hl, walkBindExpr hlf hg htb u u' hu]
      exact (hg _ hsel _ (by constructor)).symm
  | .array vs, x', h => by
    rw [walkExpr_array] at h
    cases hsel : lf (.array vs) with
    | some r =>
      rw [hsel] at h
      cases (show r = _ from h)
      exact hlf _ _ hsel
    | none =>
      rw [hsel, Option.getD_none] at h
      obtain ⟨vs', hvs, h⟩ := bind_ok h
      cases h
      rw [walkBindExprs hlf hg htb vs vs' hvs]
      exact (hg _ hsel _ (by constructor)).symm
  | .inQuery v q, x', h => by
    rw [walkExpr_inQuery] at h
    cases hsel : lf (.inQuery v q) with
    | some r =>
      rw [hsel] at h
      cases (show r = _ from h)
      exact hlf _ _ hsel
    | none =>
      rw [hsel, Option.getD_none] at h
      obtain ⟨v', hv, h⟩ := bind_ok h
      obtain ⟨q', hq, h⟩ := bind_ok h
      cases h
      rw [walkBindExpr hlf hg htb v v' hv, walkBindQuery hlf hg htb q q' hq]
      exact (hg _ hsel _ (by constructor)).symm
  | .inList v es, x', h => by
    rw [walkExpr_inList] at h
    cases hsel : lf (.inList v es) with
    | some r =>
      rw [hsel] at h
      cases (show r = _ from h)
      exact hlf _ _ hsel
    | none =>
      rw [hsel, Option.getD_none] at h
      obtain ⟨v', hv, h⟩ := bind_ok h
      obtain ⟨es', hes, h⟩ := bind_ok h
      cases h
      rw [walkBindExpr hlf hg htb v v' hv, walkBindExprs hlf hg htb es es' hes]
      exact (hg _ hsel _ (by constructor)).symm
  | .like v p e, x', h => by
    rw [walkExpr_like] at h
    cases hsel : lf (.like v p e) with
    | some r =>
      rw [hsel] at h
      cases (show r = _ from h)
      exact hlf _ _ hsel
    | none =>
      rw [hsel, Option.getD_none] at h
      obtain ⟨v', hv, h⟩ := bind_ok h
      obtain ⟨p', hp, h⟩ := bind_ok h
      obtain ⟨e', he, h⟩ := bind_ok h
      cases h
      rw [walkBindExpr hlf hg htb v v' hv, walkBindExpr hlf hg htb p p' hp, walkBindExprOpt hlf hg htb e e' he]
      exact (hg _ hsel _ (by constructor)).symm
  | .typeCtor v t, x', h => by
    rw [walkExpr_typeCtor] at h
    cases hsel : lf (.typeCtor v t) with
    | some r =>
      rw [hsel] at h
      cases (show r = _ from h)
      exact hlf _ _ hsel
    | none =>
      rw [hsel, Option.getD_none] at h
      cases h
      exact (hg _ hsel _ (by constructor)).symm
  | .row vs, x', h => by
    rw [walkExpr_row] at h
    cases hsel : lf (.row vs) with
    | some r =>
      rw [hsel] at h
      cases (show r = _ from h)
      exact hlf _ _ hsel
    | none =>
      rw [hsel, Option.getD_none] at h
      obtain ⟨vs', hvs, h⟩ := bind_ok h
      cases h
      rw [walkBindExprs hlf hg htb vs vs' hvs]
      exact (hg _ hsel _ (by constructor)).symm
  | .interval v f t, x', h => by
    rw [walkExpr_interval] at h
    cases hsel : lf (.interval v f t) with
    | some r =>
      rw [hsel] at h
      cases (show r = _ from h)
      exact hlf _ _ hsel
    | none =>
      rw [hsel, Option.getD_none] at h
      cases h
      exact (hg _ hsel _ (by constructor)).symm
  | .cast tr e t, x', h => by
    rw [walkExpr_cast] at h
    cases hsel : lf (.cast tr e t) with
    | some r =>
      rw [hsel] at h
      cases (show r = _ from h)
      exact hlf _ _ hsel
    | none =>
      rw [hsel, Option.getD_none] at h
      obtain ⟨e', he, h⟩ := bind_ok h
      cases h
      rw [walkBindExpr hlf hg htb e e' he]
      exact (hg _ hsel _ (by constructor)).symm
  | .subscript v i, x', h => by
    rw [walkExpr_subscript] at h
    cases hsel : lf (.subscript v i) with
    | some r =>
      rw [hsel] at h
      cases (show r = _ from h)
      exact hlf _ _ hsel
    | none =>
      rw [hsel, Option.getD_none] at h
      obtain ⟨v', hv, h⟩ := bind_ok h
      obtain ⟨i', hi, h⟩ := bind_ok h
      cases h
      rw [walkBindExpr hlf hg htb v v' hv, walkBindExpr hlf hg htb i i' hi]
      exact (hg _ hsel _ (by constructor)).symm
  | .case v bs e, x', h => by
    rw [walkExpr_case] at h
    cases hsel : lf (.case v bs e) with
    | some r =>
      rw [hsel] at h
      cases (show r = _ from h)
      exact hlf _ _ hsel
    | none =>
      rw [hsel, Option.getD_none] at h
      obtain ⟨v', hv, h⟩ := bind_ok h
      obtain ⟨bs', hbs, h⟩ := bind_ok h
      obtain ⟨e', he, h⟩ := bind_ok h
      cases h
      rw [walkBindExprOpt hlf hg htb v v' hv, walkBindWhens hlf hg htb bs bs' hbs, walkBindExprOpt hlf hg htb e e' he]
      exact (hg _ hsel _ (by constructor)).symm
  | .func f as, x', h => by
    rw [walkExpr_func] at h
    cases hsel : lf (.func f as) with
    | some r =>
      rw [hsel] at h
      cases (show r = _ from h)
      exact hlf _ _ hsel
    | none =>
      rw [hsel, Option.getD_none] at h
      obtain ⟨as', has, h⟩ := bind_ok h
      cases h
      rw [walkBindExprs hlf hg htb as as' has]
      exact (hg _ hsel _ (by constructor)).symm
  | .agg f as ob fl w ign, x', h => by
    rw [walkExpr_agg] at h
    cases hsel : lf (.agg f as ob fl w ign) with
    | some r =>
      rw [hsel] at h
      cases (show r = _ from h)
      exact hlf _ _ hsel
    | none =>
      rw [hsel, Option.getD_none] at h
      obtain ⟨as', has, h⟩ := bind_ok h
      obtain ⟨ob', hob, h⟩ := bind_ok h
      obtain ⟨fl', hfl, h⟩ := bind_ok h
      obtain ⟨w', hw, h⟩ := bind_ok h
      cases h
      rw [walkBindExprs hlf hg htb as as' has, walkBindOrds hlf hg htb ob ob' hob, walkBindExprOpt hlf hg htb fl fl' hfl, walkBindWinOpt hlf hg htb w w' hw]
      exact (hg _ hsel _ (by constructor)).symm
  | .listagg v sep ov ob, x', h => by
    rw [walkExpr_listagg] at h
    cases hsel : lf (.listagg v sep ov ob) with
    | some r =>
      rw [hsel] at h
      cases (show r = _ from h)
      exact hlf _ _ hsel
    | none =>
      rw [hsel, Option.getD_none] at h
      obtain ⟨v', hv, h⟩ := bind_ok h
      obtain ⟨ob', hob, h⟩ := bind_ok h
      cases h
      rw [walkBindExpr hlf hg htb v v' hv, walkBindOrds hlf hg htb ob ob' hob]
      exact (hg _ hsel _ (by constructor)).symm
  | .curTime f p, x', h => by
    rw [walkExpr_curTime] at h
    cases hsel : lf (.curTime f p) with
    | some r =>
      rw [hsel] at h
      cases (show r = _ from h)
      exact hlf _ _ hsel
    | none =>
      rw [hsel, Option.getD_none] at h
      cases h
      exact (hg _ hsel _ (by constructor)).symm
  | .session f, x', h => by
    rw [walkExpr_session] at h
    cases hsel : lf (.session f) with
    | some r =>
      rw [hsel] at h
      cases (show r = _ from h)
      exact hlf _ _ hsel
    | none =>
      rw [hsel, Option.getD_none] at h
      cases h
      exact (hg _ hsel _ (by constructor)).symm
  | .normalize v fo, x', h => by
    rw [walkExpr_normalize] at h
    cases hsel : lf (.normalize v fo) with
    | some r =>
      rw [hsel] at h
      cases (show r = _ from h)
      exact hlf _ _ hsel
    | none =>
      rw [hsel, Option.getD_none] at h
      obtain ⟨v', hv, h⟩ := bind_ok h
      cases h
      rw [walkBindExpr hlf hg htb v v' hv]
      exact (hg _ hsel _ (by constructor)).symm
  | .query q, x', h => by
    rw [walkExpr_query] at h
    cases hsel : lf (.query q) with
    | some r =>
      rw [hsel] at h
      cases (show r = _ from h)
      exact hlf _ _ hsel
    | none =>
      rw [hsel, Option.getD_none] at h
      obtain ⟨q', hq, h⟩ := bind_ok h
      cases h
      rw [walkBindQuery hlf hg htb q q' hq]
      exact (hg _ hsel _ (by constructor)).symm
theorem walkBindOrd (hlf : ∀ e r, lf e = some (.ok r) → r = mapExpr g tg e) (hg : ∀ e, lf e = none → ∀ e', Spec.SameNode e e' → g e' = e') (htb : ∀ t t', tb t = .ok t' → t' = tg t) : ∀ (x x' : Ord), walkOrd lf tb x = .ok x' → x' = mapOrd g tg x
  | .mk v d nf, x', h => by
    rw [walkOrd_mk] at h
    obtain ⟨v', hv, h⟩ := bind_ok h
    cases h
    rw [walkBindExpr hlf hg htb v v' hv]
    rfl
theorem walkBindBound (hlf : ∀ e r, lf e = some (.ok r) → r = mapExpr g tg e) (hg : ∀ e, lf e = none → ∀ e', Spec.SameNode e e' → g e' = e') (htb : ∀ t t', tb t = .ok t' → t' = tg t) : ∀ (x x' : Bound), walkBound lf tb x = .ok x' → x' = mapBound g tg x
  | .bounded t e, x', h => by
    rw [walkBound_bounded] at h
    obtain ⟨e', he, h⟩ := bind_ok h
    cases h
    rw [walkBindExpr hlf hg htb e e' he]
    rfl
  | .unbounded t, x', h => by
    rw [walkBound_unbounded] at h
    cases h
    rfl
  | .current, x', h => by
    rw [walkBound_current] at h
    cases h
    rfl
theorem walkBindWin (hlf : ∀ e r, lf e = some (.ok r) → r = mapExpr g tg e) (hg : ∀ e, lf e = none → ∀ e', Spec.SameNode e e' → g e' = e') (htb : ∀ t t', tb t = .ok t' → t' = tg t) : ∀ (x x' : Win), walkWin lf tb x = .ok x' → x' = mapWin g tg x
  | .mk p ob ps f st en, x', h => by
    rw [walkWin_mk] at h
    obtain ⟨ob', hob, h⟩ := bind_ok h
    obtain ⟨ps', hps, h⟩ := bind_ok h
    obtain ⟨st', hst, h⟩ := bind_ok h
    obtain ⟨en', hen, h⟩ := bind_ok h
    cases h
    rw [walkBindOrds hlf hg htb ob ob' hob, walkBindExprs hlf hg htb ps ps' hps, walkBindBound hlf hg htb st st' hst, walkBindBound hlf hg htb en en' hen]
    rfl
theorem walkBindGrp (hlf : ∀ e r, lf e = some (.ok r) → r = mapExpr g tg e) (hg : ∀ e, lf e = none → ∀ e', Spec.SameNode e e' → g e' = e') (htb : ∀ t t', tb t = .ok t' → t' = tg t) : ∀ (x x' : Grp), walkGrp lf tb x = .ok x' → x' = mapGrp g tg x
  | .set vs, x', h => by
    rw [walkGrp_set] at h
    obtain ⟨vs', hvs, h⟩ := bind_ok h
    cases h
    rw [walkBindExprs hlf hg htb vs vs' hvs]
    rfl
  | .sets gs, x', h => by
    rw [walkGrp_sets] at h
    obtain ⟨gs', hgs, h⟩ := bind_ok h
    cases h
    rw [walkBindLists hlf hg htb gs gs' hgs]
    rfl
  | .cube vs, x', h => by
    rw [walkGrp_cube] at h
    obtain ⟨vs', hvs, h⟩ := bind_ok h
    cases h
    rw [walkBindExprs hlf hg htb vs vs' hvs]
    rfl
  | .rollup vs, x', h => by
    rw [walkGrp_rollup] at h
    obtain ⟨vs', hvs, h⟩ := bind_ok h
    cases h
    rw [walkBindExprs hlf hg htb vs vs' hvs]
    rfl
theorem walkBindGroupBy (hlf : ∀ e r, lf e = some (.ok r) → r = mapExpr g tg e) (hg : ∀ e, lf e = none → ∀ e', Spec.SameNode e e' → g e' = e') (htb : ∀ t t', tb t = .ok t' → t' = tg t) : ∀ (x x' : GroupBy), walkGroupBy lf tb x = .ok x' → x' = mapGroupBy g tg x
  | .mk gs d, x', h => by
    rw [walkGroupBy_mk] at h
    obtain ⟨gs', hgs, h⟩ := bind_ok h
    cases h
    rw [walkBindGrps hlf hg htb gs gs' hgs]
    rfl
theorem walkBindQuery (hlf : ∀ e r, lf e = some (.ok r) → r = mapExpr g tg e) (hg : ∀ e, lf e = none → ∀ e', Spec.SameNode e e' → g e' = e') (htb : ∀ t t', tb t = .ok t' → t' = tg t) : ∀ (x x' : Query), walkQuery lf tb x = .ok x' → x' = mapQuery g tg x
  | .mk b off lim ob w, x', h => by
    rw [walkQuery_mk] at h
    obtain ⟨b', hb, h⟩ := bind_ok h
    obtain ⟨ob', hob, h⟩ := bind_ok h
    obtain ⟨w', hw, h⟩ := bind_ok h
    cases h
    rw [walkBindQBody hlf hg htb b b' hb, walkBindOrds hlf hg htb ob ob' hob, walkBindNameds hlf hg htb w w' hw]
    rfl
theorem walkBindQBody (hlf : ∀ e r, lf e = some (.ok r) → r = mapExpr g tg e) (hg : ∀ e, lf e = none → ∀ e', Spec.SameNode e e' → g e' = e') (htb : ∀ t t', tb t = .ok t' → t' = tg t) : ∀ (x x' : QBody), walkQBody lf tb x = .ok x' → x' = mapQBody g tg x
  | .select items fr wh gb hv d wins, x', h => by
    rw [walkQBody_select] at h
    obtain ⟨items', hitems, h⟩ := bind_ok h
    obtain ⟨fr', hfr, h⟩ := bind_ok h
    obtain ⟨wh', hwh, h⟩ := bind_ok h
    obtain ⟨gb', hgb, h⟩ := bind_ok h
    obtain ⟨hv', hhv, h⟩ := bind_ok h
    obtain ⟨wins', hwins, h⟩ := bind_ok h
    cases h
    rw [walkBindExprs hlf hg htb items items' hitems, walkBindRelOpt hlf hg htb fr fr' hfr, walkBindExprOpt hlf hg htb wh wh' hwh, walkBindGroupByOpt hlf hg htb gb gb' hgb, walkBindExprOpt hlf hg htb hv hv' hhv, walkBindNamedWins hlf hg htb wins wins' hwins]
    rfl
  | .set k l r d, x', h => by
    rw [walkQBody_set] at h
    obtain ⟨l', hl, h⟩ := bind_ok h
    obtain ⟨r', hr, h⟩ := bind_ok h
    cases h
    rw [walkBindQuery hlf hg htb l l' hl, walkBindQuery hlf hg htb r r' hr]
    rfl
  | .table t, x', h => by
    rw [walkQBody_table] at h
    obtain ⟨t', ht, h⟩ := bind_ok h
    cases h
    rw [htb t t' ht]
    rfl
  | .values es, x', h => by
    rw [walkQBody_values] at h
    obtain ⟨es', hes, h⟩ := bind_ok h
    cases h
    rw [walkBindExprs hlf hg htb es es' hes]
    rfl
theorem walkBindNamed (hlf : ∀ e r, lf e = some (.ok r) → r = mapExpr g tg e) (hg : ∀ e, lf e = none → ∀ e', Spec.SameNode e e' → g e' = e') (htb : ∀ t t', tb t = .ok t' → t' = tg t) : ∀ (x x' : Named), walkNamed lf tb x = .ok x' → x' = mapNamed g tg x
  | .mk r a cols, x', h => by
    rw [walkNamed_mk] at h
    obtain ⟨r', hr, h⟩ := bind_ok h
    cases h
    rw [walkBindRel hlf hg htb r r' hr]
    rfl
theorem walkBindRel (hlf : ∀ e r, lf e = some (.ok r) → r = mapExpr g tg e) (hg : ∀ e, lf e = none → ∀ e', Spec.SameNode e e' → g e' = e') (htb : ∀ t t', tb t = .ok t' → t' = tg t) : ∀ (x x' : Rel), walkRel lf tb x = .ok x' → x' = mapRel g tg x
  | .table t, x', h => by
    rw [walkRel_table] at h
    obtain ⟨t', ht, h⟩ := bind_ok h
    cases h
    rw [htb t t' ht]
    rfl
  | .query q, x', h => by
    rw [walkRel_query] at h
    obtain ⟨q', hq, h⟩ := bind_ok h
    cases h
    rw [walkBindQuery hlf hg htb q q' hq]
    rfl
  | .aliased n, x', h => by
    rw [walkRel_aliased] at h
    obtain ⟨n', hn, h⟩ := bind_ok h
    cases h
    rw [walkBindNamed hlf hg htb n n' hn]
    rfl
  | .join l r t nat cr, x', h => by
    rw [walkRel_join] at h
    obtain ⟨l', hl, h⟩ := bind_ok h
    obtain ⟨r', hr, h⟩ := bind_ok h
    obtain ⟨cr', hcr, h⟩ := bind_ok h
    cases h
    rw [walkBindRel hlf hg htb l l' hl, walkBindRel hlf hg htb r r' hr, walkBindCritOpt hlf hg htb cr cr' hcr]
    rfl
  | .unnest as ord, x', h => by
    rw [walkRel_unnest] at h
    obtain ⟨as', has, h⟩ := bind_ok h
    cases h
    rw [walkBindExprs hlf hg htb as as' has]
    rfl
  | .lateral q, x', h => by
    rw [walkRel_lateral] at h
    obtain ⟨q', hq, h⟩ := bind_ok h
    cases h
    rw [walkBindQuery hlf hg htb q q' hq]
    rfl
  | .sample r t p, x', h => by
    rw [walkRel_sample] at h
    obtain ⟨r', hr, h⟩ := bind_ok h
    obtain ⟨p', hp, h⟩ := bind_ok h
    cases h
    rw [walkBindRel hlf hg htb r r' hr, walkBindExpr hlf hg htb p p' hp]
    rfl
theorem walkBindCrit (hlf : ∀ e r, lf e = some (.ok r) → r = mapExpr g tg e) (hg : ∀ e, lf e = none → ∀ e', Spec.SameNode e e' → g e' = e') (htb : ∀ t t', tb t = .ok t' → t' = tg t) : ∀ (x x' : Crit), walkCrit lf tb x = .ok x' → x' = mapCrit g tg x
  | .using cols, x', h => by
    rw [walkCrit_using] at h
    cases h
    rfl
  | .on e, x', h => by
    rw [walkCrit_on] at h
    obtain ⟨e', he, h⟩ := bind_ok h
    cases h
    rw [walkBindExpr hlf hg htb e e' he]
    rfl
theorem walkBindExprOpt (hlf : ∀ e r, lf e = some (.ok r) → r = mapExpr g tg e) (hg : ∀ e, lf e = none → ∀ e', Spec.SameNode e e' → g e' = e') (htb : ∀ t t', tb t = .ok t' → t' = tg t) : ∀ (x x' : Option Expr), walkExprOpt lf tb x = .ok x' → x' = mapExprOpt g tg x
  | none, x', h => by
    rw [walkExprOpt_none] at h
    cases h
    rfl
  | some x, x', h => by
    rw [walkExprOpt_some] at h
    obtain ⟨x', hx, h⟩ := bind_ok h
    cases h
    rw [walkBindExpr hlf hg htb x x' hx]
    rfl
theorem walkBindExprs (hlf : ∀ e r, lf e = some (.ok r) → r = mapExpr g tg e) (hg : ∀ e, lf e = none → ∀ e', Spec.SameNode e e' → g e' = e') (htb : ∀ t t', tb t = .ok t' → t' = tg t) : ∀ (x x' : List Expr), walkExprs lf tb x = .ok x' → x' = mapExprs g tg x
  | [], x', h => by
    rw [walkExprs_nil] at h
    cases h
    rfl
  | x :: xs, x', h => by
    rw [walkExprs_cons] at h
    obtain ⟨x', hx, h⟩ := bind_ok h
    obtain ⟨xs', hxs, h⟩ := bind_ok h
    cases h
    rw [walkBindExpr hlf hg htb x x' hx, walkBindExprs hlf hg htb xs xs' hxs]
    rfl
theorem walkBindLists (hlf : ∀ e r, lf e = some (.ok r) → r = mapExpr g tg e) (hg : ∀ e, lf e = none → ∀ e', Spec.SameNode e e' → g e' = e') (htb : ∀ t t', tb t = .ok t' → t' = tg t) : ∀ (x x' : List (List Expr)), walkLists lf tb x = .ok x' → x' = mapLists g tg x
  | [], x', h => by
    rw [walkLists_nil] at h
    cases h
    rfl
  | x :: xs, x', h => by
    rw [walkLists_cons] at h
    obtain ⟨x', hx, h⟩ := bind_ok h
    obtain ⟨xs', hxs, h⟩ := bind_ok h
    cases h
    rw [walkBindExprs hlf hg htb x x' hx, walkBindLists hlf hg htb xs xs' hxs]
    rfl
theorem walkBindWhens (hlf : ∀ e r, lf e = some (.ok r) → r = mapExpr g tg e) (hg : ∀ e, lf e = none → ∀ e', Spec.SameNode e e' → g e' = e') (htb : ∀ t t', tb t = .ok t' → t' = tg t) : ∀ (x x' : List (Expr × Expr)), walkWhens lf tb x = .ok x' → x' = mapWhens g tg x
  | [], x', h => by
    rw [walkWhens_nil] at h
    cases h
    rfl
  | (c, v) :: xs, x', h => by
    rw [walkWhens_cons] at h
    obtain ⟨c', hc, h⟩ := bind_ok h
    obtain ⟨v', hv, h⟩ := bind_ok h
    obtain ⟨xs', hxs, h⟩ := bind_ok h
    cases h
    rw [walkBindExpr hlf hg htb c c' hc, walkBindExpr hlf hg htb v v' hv, walkBindWhens hlf hg htb xs xs' hxs]
    rfl
theorem walkBindOrds (hlf : ∀ e r, lf e = some (.ok r) → r = mapExpr g tg e) (hg : ∀ e, lf e = none → ∀ e', Spec.SameNode e e' → g e' = e') (htb : ∀ t t', tb t = .ok t' → t' = tg t) : ∀ (x x' : List Ord), walkOrds lf tb x = .ok x' → x' = mapOrds g tg x
  | [], x', h => by
    rw [walkOrds_nil] at h
    cases h
    rfl
  | x :: xs, x', h => by
    rw [walkOrds_cons] at h
    obtain ⟨x', hx, h⟩ := bind_ok h
    obtain ⟨xs', hxs, h⟩ := bind_ok h
    cases h
    rw [walkBindOrd hlf hg htb x x' hx, walkBindOrds hlf hg htb xs xs' hxs]
    rfl
theorem walkBindWinOpt (hlf : ∀ e r, lf e = some (.ok r) → r = mapExpr g tg e) (hg : ∀ e, lf e = none → ∀ e', Spec.SameNode e e' → g e' = e') (htb : ∀ t t', tb t = .ok t' → t' = tg t) : ∀ (x x' : Option Win), walkWinOpt lf tb x = .ok x' → x' = mapWinOpt g tg x
  | none, x', h => by
    rw [walkWinOpt_none] at h
    cases h
    rfl
  | some x, x', h => by
    rw [walkWinOpt_some] at h
    obtain ⟨x', hx, h⟩ := bind_ok h
    cases h
    rw [walkBindWin hlf hg htb x x' hx]
    rfl
theorem walkBindGrps (hlf : ∀ e r, lf e = some (.ok r) → r = mapExpr g tg e) (hg : ∀ e, lf e = none → ∀ e', Spec.SameNode e e' → g e' = e') (htb : ∀ t t', tb t = .ok t' → t' = tg t) : ∀ (x x' : List Grp), walkGrps lf tb x = .ok x' → x' = mapGrps g tg x
  | [], x', h => by
    rw [walkGrps_nil] at h
    cases h
    rfl
  | x :: xs, x', h => by
    rw [walkGrps_cons] at h
    obtain ⟨x', hx, h⟩ := bind_ok h
    obtain ⟨xs', hxs, h⟩ := bind_ok h
    cases h
    rw [walkBindGrp hlf hg htb x x' hx, walkBindGrps hlf hg htb xs xs' hxs]
    rfl
theorem walkBindGroupByOpt (hlf : ∀ e r, lf e = some (.ok r) → r = mapExpr g tg e) (hg : ∀ e, lf e = none → ∀ e', Spec.SameNode e e' → g e' = e') (htb : ∀ t t', tb t = .ok t' → t' = tg t) : ∀ (x x' : Option GroupBy), walkGroupByOpt lf tb x = .ok x' → x' = mapGroupByOpt g tg x
  | none, x', h => by
    rw [walkGroupByOpt_none] at h
    cases h
    rfl
  | some x, x', h => by
    rw [walkGroupByOpt_some] at h
    obtain ⟨x', hx, h⟩ := bind_ok h
    cases h
    rw [walkBindGroupBy hlf hg htb x x' hx]
    rfl
theorem walkBindNamedWins (hlf : ∀ e r, lf e = some (.ok r) → r = mapExpr g tg e) (hg : ∀ e, lf e = none → ∀ e', Spec.SameNode e e' → g e' = e') (htb : ∀ t t', tb t = .ok t' → t' = tg t) : ∀ (x x' : List (Str × Win)), walkNamedWins lf tb x = .ok x' → x' = mapNamedWins g tg x
  | [], x', h => by
    rw [walkNamedWins_nil] at h
    cases h
    rfl
  | (n, w) :: xs, x', h => by
    rw [walkNamedWins_cons] at h
    obtain ⟨w', hw, h⟩ := bind_ok h
    obtain ⟨xs', hxs, h⟩ := bind_ok h
    cases h
    rw [walkBindWin hlf hg htb w w' hw, walkBindNamedWins hlf hg htb xs xs' hxs]
    rfl
theorem walkBindNameds (hlf : ∀ e r, lf e = some (.ok r) → r = mapExpr g tg e) (hg : ∀ e, lf e = none → ∀ e', Spec.SameNode e e' → g e' = e') (htb : ∀ t t', tb t = .ok t' → t' = tg t) : ∀ (x x' : List Named), walkNameds lf tb x = .ok x' → x' = mapNameds g tg x
  | [], x', h => by
    rw [walkNameds_nil] at h
    cases h
    rfl
  | x :: xs, x', h => by
    rw [walkNameds_cons] at h
    obtain ⟨x', hx, h⟩ := bind_ok h
    obtain ⟨xs', hxs, h⟩ := bind_ok h
    cases h
    rw [walkBindNamed hlf hg htb x x' hx, walkBindNameds hlf hg htb xs xs' hxs]
    rfl
theorem walkBindRelOpt (hlf : ∀ e r, lf e = some (.ok r) → r = mapExpr g tg e) (hg : ∀ e, lf e = none → ∀ e', Spec.SameNode e e' → g e' = e') (htb : ∀ t t', tb t = .ok t' → t' = tg t) : ∀ (x x' : Option Rel), walkRelOpt lf tb x = .ok x' → x' = mapRelOpt g tg x
  | none, x', h => by
    rw [walkRelOpt_none] at h
    cases h
    rfl
  | some x, x', h => by
    rw [walkRelOpt_some] at h
    obtain ⟨x', hx, h⟩ := bind_ok h
    cases h
    rw [walkBindRel hlf hg htb x x' hx]
    rfl
theorem walkBindCritOpt (hlf : ∀ e r, lf e = some (.ok r) → r = mapExpr g tg e) (hg : ∀ e, lf e = none → ∀ e', Spec.SameNode e e' → g e' = e') (htb : ∀ t t', tb t = .ok t' → t' = tg t) : ∀ (x x' : Option Crit), walkCritOpt lf tb x = .ok x' → x' = mapCritOpt g tg x
  | none, x', h => by
    rw [walkCritOpt_none] at h
    cases h
    rfl
  | some x, x', h => by
    rw [walkCritOpt_some] at h
    obtain ⟨x', hx, h⟩ := bind_ok h
    cases h
    rw [walkBindCrit hlf hg htb x x' hx]
    rfl
end

end Treeno
