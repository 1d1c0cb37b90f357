import Verif.Lemmas.WalkEqs
import Verif.Lemmas.TypeText
import Verif.Spec.TreeMap
import Verif.Spec.Columns
import Verif.Spec.QueryText
/-!
# Facts about the generic traversal, for any replacement function

What the replacement function leaves alone, the traversal leaves alone.  One statement per tree type; the proofs follow the definition of `walkExpr` arm by arm.
-/
set_option linter.unusedVariables false
set_option maxHeartbeats 1600000
namespace Treeno
open Spec

variable {lf : Leaf} {tb : TabFn} {g : Expr → Expr} {tg : TableRef → TableRef}

mutual
theorem walkMapExpr (hlf : ∀ e r, lf e = some (.ok r) → mapExpr g tg r = mapExpr g tg e) (htb : ∀ t t', tb t = .ok t' → tg t' = tg t) : ∀ (x x' : Expr), walkExpr lf tb x = .ok x' → mapExpr g tg x' = mapExpr g tg x
  | .lit v t, x', h => by
    rw [walkExpr_lit] at h
    cases hsel : lf (.lit v t) with
    | some r =>
      rw [hsel] at h
      cases (show r = _ from h)
      exact hlf _ _ hsel
    | none =>
      rw [hsel, Option.getD_none] at h
      cases h
      rfl
  | .field n tn t, x', h => by
    rw [walkExpr_field] at h
    cases hsel : lf (.field n tn t) with
    | some r =>
      rw [hsel] at h
      cases (show r = _ from h)
      exact hlf _ _ hsel
    | none =>
      rw [hsel, Option.getD_none] at h
      cases h
      rfl
  | .fieldOf n b t, x', h => by
    rw [walkExpr_fieldOf] at h
    cases hsel : lf (.fieldOf n b t) with
    | some r =>
      rw [hsel] at h
      cases (show r = _ from h)
      exact hlf _ _ hsel
    | none =>
      rw [hsel, Option.getD_none] at h
      obtain ⟨b', hb, h⟩ := bind_ok h
      cases h
      show (g (.fieldOf n (mapExpr g tg b') t) : Expr) = g (.fieldOf n (mapExpr g tg b) t)
      rw [walkMapExpr hlf htb b b' hb]
  | .alias v n, x', h => by
    rw [walkExpr_alias] at h
    cases hsel : lf (.alias v n) with
    | some r =>
      rw [hsel] at h
      cases (show r = _ from h)
      exact hlf _ _ hsel
    | none =>
      rw [hsel, Option.getD_none] at h
      obtain ⟨v', hv, h⟩ := bind_ok h
      cases h
      show (g (.alias (mapExpr g tg v') n) : Expr) = g (.alias (mapExpr g tg v) n)
      rw [walkMapExpr hlf htb v v' hv]
  | .star tn t, x', h => by
    rw [walkExpr_star] at h
    cases hsel : lf (.star tn t) with
    | some r =>
      rw [hsel] at h
      cases (show r = _ from h)
      exact hlf _ _ hsel
    | none =>
      rw [hsel, Option.getD_none] at h
      cases h
      rfl
  | .starOf b t, x', h => by
    rw [walkExpr_starOf] at h
    cases hsel : lf (.starOf b t) with
    | some r =>
      rw [hsel] at h
      cases (show r = _ from h)
      exact hlf _ _ hsel
    | none =>
      rw [hsel, Option.getD_none] at h
      obtain ⟨b', hb, h⟩ := bind_ok h
      cases h
      show (g (.starOf (mapExpr g tg b') t) : Expr) = g (.starOf (mapExpr g tg b) t)
      rw [walkMapExpr hlf htb b b' hb]
  | .aliasedStar s as, x', h => by
    rw [walkExpr_aliasedStar] at h
    cases hsel : lf (.aliasedStar s as) with
    | some r =>
      rw [hsel] at h
      cases (show r = _ from h)
      exact hlf _ _ hsel
    | none =>
      rw [hsel, Option.getD_none] at h
      obtain ⟨s', hs, h⟩ := bind_ok h
      cases h
      show (g (.aliasedStar (mapExpr g tg s') as) : Expr) = g (.aliasedStar (mapExpr g tg s) as)
      rw [walkMapExpr hlf htb s s' hs]
  | .var n, x', h => by
    rw [walkExpr_var] at h
    cases hsel : lf (.var n) with
    | some r =>
      rw [hsel] at h
      cases (show r = _ from h)
      exact hlf _ _ hsel
    | none =>
      rw [hsel, Option.getD_none] at h
      cases h
      rfl
  | .lam ins b, x', h => by
    rw [walkExpr_lam] at h
    cases hsel : lf (.lam ins b) with
    | some r =>
      rw [hsel] at h
      cases (show r = _ from h)
      exact hlf _ _ hsel
    | none =>
      rw [hsel, Option.getD_none] at h
      obtain ⟨b', hb, h⟩ := bind_ok h
      cases h
      show (g (.lam ins (mapExpr g tg b')) : Expr) = g (.lam ins (mapExpr g tg b))
      rw [walkMapExpr hlf htb b b' hb]
  | .un op v, x', h => by
    rw [walkExpr_un] at h
    cases hsel : lf (.un op v) with
    | some r =>
      rw [hsel] at h
      cases (show r = _ from h)
      exact hlf _ _ hsel
    | none =>
      rw [hsel, Option.getD_none] at h
      obtain ⟨v', hv, h⟩ := bind_ok h
      cases h
      show (g (.un op (mapExpr g tg v')) : Expr) = g (.un op (mapExpr g tg v))
      rw [walkMapExpr hlf htb v v' hv]
  | .bin op l r, x', h => by
    rw [walkExpr_bin] at h
    cases hsel : lf (.bin op l r) with
    | some r =>
      rw [hsel] at h
      cases (show r = _ from h)
      exact hlf _ _ hsel
    | none =>
      rw [hsel, Option.getD_none] at h
      obtain ⟨l', hl, h⟩ := bind_ok h
      obtain ⟨r', hr, h⟩ := bind_ok h
      cases h
      show (g (.bin op (mapExpr g tg l') (mapExpr g tg r')) : Expr) = g (.bin op (mapExpr g tg l) (mapExpr g tg r))
      rw [walkMapExpr hlf htb l l' hl, walkMapExpr hlf htb r r' hr]
  | .not v, x', h => by
    rw [walkExpr_not] at h
    cases hsel : lf (.not v) with
    | some r =>
      rw [hsel] at h
      cases (show r = _ from h)
      exact hlf _ _ hsel
    | none =>
      rw [hsel, Option.getD_none] at h
      obtain ⟨v', hv, h⟩ := bind_ok h
      cases h
      show (g (.not (mapExpr g tg v')) : Expr) = g (.not (mapExpr g tg v))
      rw [walkMapExpr hlf htb v v' hv]
  | .isNull v, x', h => by
    rw [walkExpr_isNull] at h
    cases hsel : lf (.isNull v) with
    | some r =>
      rw [hsel] at h
      cases (show r = _ from h)
      exact hlf _ _ hsel
    | none =>
      rw [hsel, Option.getD_none] at h
      obtain ⟨v', hv, h⟩ := bind_ok h
      cases h
      show (g (.isNull (mapExpr g tg v')) : Expr) = g (.isNull (mapExpr g tg v))
      rw [walkMapExpr hlf htb v v' hv]
  | .between v l u, x', h => by
    rw [walkExpr_between] at h
    cases hsel : lf (.between v l u) with
    | some r =>
      rw [hsel] at h
      cases (show r = _ from h)
      exact hlf _ _ hsel
    | none =>
      rw [hsel, Option.getD_none] at h
      obtain ⟨v', hv, h⟩ := bind_ok h
      obtain ⟨l', hl, h⟩ := bind_ok h
      obtain ⟨u', hu, h⟩ := bind_ok h
      cases h
      show (g (.between (mapExpr g tg v') (mapExpr g tg l') (mapExpr g tg u')) : Expr) = g (.between (mapExpr g tg v) (mapExpr g tg l) (mapExpr g tg u))
      rw [walkMapExpr hlf htb v v' hv, walkMapExpr hlf htb l l' hl, walkMapExpr hlf htb u u' hu]
  | .array vs, x', h => by
    rw [walkExpr_array] at h
    cases hsel : lf (.array vs) with
    | some r =>
      rw [hsel] at h
      cases (show r = _ from h)
      exact hlf _ _ hsel
    | none =>
      rw [hsel, Option.getD_none] at h
      obtain ⟨vs', hvs, h⟩ := bind_ok h
      cases h
      show (g (.array (mapExprs g tg vs')) : Expr) = g (.array (mapExprs g tg vs))
      rw [walkMapExprs hlf htb vs vs' hvs]
  | .inQuery v q, x', h => by
    rw [walkExpr_inQuery] at h
    cases hsel : lf (.inQuery v q) with
    | some r =>
      rw [hsel] at h
      cases (show r = _ from h)
      exact hlf _ _ hsel
    | none =>
      rw [hsel, Option.getD_none] at h
      obtain ⟨v', hv, h⟩ := bind_ok h
      obtain ⟨q', hq, h⟩ := bind_ok h
      cases h
      show (g (.inQuery (mapExpr g tg v') (mapQuery g tg q')) : Expr) = g (.inQuery (mapExpr g tg v) (mapQuery g tg q))
      rw [walkMapExpr hlf htb v v' hv, walkMapQuery hlf htb q q' hq]
  | .inList v es, x', h => by
    rw [walkExpr_inList] at h
    cases hsel : lf (.inList v es) with
    | some r =>
      rw [hsel] at h
      cases (show r = _ from h)
      exact hlf _ _ hsel
    | none =>
      rw [hsel, Option.getD_none] at h
      obtain ⟨v', hv, h⟩ := bind_ok h
      obtain ⟨es', hes, h⟩ := bind_ok h
      cases h
      show (g (.inList (mapExpr g tg v') (mapExprs g tg es')) : Expr) = g (.inList (mapExpr g tg v) (mapExprs g tg es))
      rw [walkMapExpr hlf htb v v' hv, walkMapExprs hlf htb es es' hes]
  | .like v p e, x', h => by
    rw [walkExpr_like] at h
    cases hsel : lf (.like v p e) with
    | some r =>
      rw [hsel] at h
      cases (show r = _ from h)
      exact hlf _ _ hsel
    | none =>
      rw [hsel, Option.getD_none] at h
      obtain ⟨v', hv, h⟩ := bind_ok h
      obtain ⟨p', hp, h⟩ := bind_ok h
      obtain ⟨e', he, h⟩ := bind_ok h
      cases h
      show (g (.like (mapExpr g tg v') (mapExpr g tg p') (mapExprOpt g tg e')) : Expr) = g (.like (mapExpr g tg v) (mapExpr g tg p) (mapExprOpt g tg e))
      rw [walkMapExpr hlf htb v v' hv, walkMapExpr hlf htb p p' hp, walkMapExprOpt hlf htb e e' he]
  | .typeCtor v t, x', h => by
    rw [walkExpr_typeCtor] at h
    cases hsel : lf (.typeCtor v t) with
    | some r =>
      rw [hsel] at h
      cases (show r = _ from h)
      exact hlf _ _ hsel
    | none =>
      rw [hsel, Option.getD_none] at h
      cases h
      rfl
  | .row vs, x', h => by
    rw [walkExpr_row] at h
    cases hsel : lf (.row vs) with
    | some r =>
      rw [hsel] at h
      cases (show r = _ from h)
      exact hlf _ _ hsel
    | none =>
      rw [hsel, Option.getD_none] at h
      obtain ⟨vs', hvs, h⟩ := bind_ok h
      cases h
      show (g (.row (mapExprs g tg vs')) : Expr) = g (.row (mapExprs g tg vs))
      rw [walkMapExprs hlf htb vs vs' hvs]
  | .interval v f t, x', h => by
    rw [walkExpr_interval] at h
    cases hsel : lf (.interval v f t) with
    | some r =>
      rw [hsel] at h
      cases (show r = _ from h)
      exact hlf _ _ hsel
    | none =>
      rw [hsel, Option.getD_none] at h
      cases h
      rfl
  | .cast tr e t, x', h => by
    rw [walkExpr_cast] at h
    cases hsel : lf (.cast tr e t) with
    | some r =>
      rw [hsel] at h
      cases (show r = _ from h)
      exact hlf _ _ hsel
    | none =>
      rw [hsel, Option.getD_none] at h
      obtain ⟨e', he, h⟩ := bind_ok h
      cases h
      show (g (.cast tr (mapExpr g tg e') t) : Expr) = g (.cast tr (mapExpr g tg e) t)
      rw [walkMapExpr hlf htb e e' he]
  | .subscript v i, x', h => by
    rw [walkExpr_subscript] at h
    cases hsel : lf (.subscript v i) with
    | some r =>
      rw [hsel] at h
      cases (show r = _ from h)
      exact hlf _ _ hsel
    | none =>
      rw [hsel, Option.getD_none] at h
      obtain ⟨v', hv, h⟩ := bind_ok h
      obtain ⟨i', hi, h⟩ := bind_ok h
      cases h
      show (g (.subscript (mapExpr g tg v') (mapExpr g tg i')) : Expr) = g (.subscript (mapExpr g tg v) (mapExpr g tg i))
      rw [walkMapExpr hlf htb v v' hv, walkMapExpr hlf htb i i' hi]
  | .case v bs e, x', h => by
    rw [walkExpr_case] at h
    cases hsel : lf (.case v bs e) with
    | some r =>
      rw [hsel] at h
      cases (show r = _ from h)
      exact hlf _ _ hsel
    | none =>
      rw [hsel, Option.getD_none] at h
      obtain ⟨v', hv, h⟩ := bind_ok h
      obtain ⟨bs', hbs, h⟩ := bind_ok h
      obtain ⟨e', he, h⟩ := bind_ok h
      cases h
      show (g (.case (mapExprOpt g tg v') (mapWhens g tg bs') (mapExprOpt g tg e')) : Expr) = g (.case (mapExprOpt g tg v) (mapWhens g tg bs) (mapExprOpt g tg e))
      rw [walkMapExprOpt hlf htb v v' hv, walkMapWhens hlf htb bs bs' hbs, walkMapExprOpt hlf htb e e' he]
  | .func f as, x', h => by
    rw [walkExpr_func] at h
    cases hsel : lf (.func f as) with
    | some r =>
      rw [hsel] at h
      cases (show r = _ from h)
      exact hlf _ _ hsel
    | none =>
      rw [hsel, Option.getD_none] at h
      obtain ⟨as', has, h⟩ := bind_ok h
      cases h
      show (g (.func f (mapExprs g tg as')) : Expr) = g (.func f (mapExprs g tg as))
      rw [walkMapExprs hlf htb as as' has]
  | .agg f as ob fl w ign, x', h => by
    rw [walkExpr_agg] at h
    cases hsel : lf (.agg f as ob fl w ign) with
    | some r =>
      rw [hsel] at h
      cases (show r = _ from h)
      exact hlf _ _ hsel
    | none =>
      rw [hsel, Option.getD_none] at h
      obtain ⟨as', has, h⟩ := bind_ok h
      obtain ⟨ob', hob, h⟩ := bind_ok h
      obtain ⟨fl', hfl, h⟩ := bind_ok h
      obtain ⟨w', hw, h⟩ := bind_ok h
      cases h
      show (g (.agg f (mapExprs g tg as') (mapOrds g tg ob') (mapExprOpt g tg fl') (mapWinOpt g tg w') ign) : Expr) = g (.agg f (mapExprs g tg as) (mapOrds g tg ob) (mapExprOpt g tg fl) (mapWinOpt g tg w) ign)
      rw [walkMapExprs hlf htb as as' has, walkMapOrds hlf htb ob ob' hob, walkMapExprOpt hlf htb fl fl' hfl, walkMapWinOpt hlf htb w w' hw]
  | .listagg v sep ov ob, x', h => by
    rw [walkExpr_listagg] at h
    cases hsel : lf (.listagg v sep ov ob) with
    | some r =>
      rw [hsel] at h
      cases (show r = _ from h)
      exact hlf _ _ hsel
    | none =>
      rw [hsel, Option.getD_none] at h
      obtain ⟨v', hv, h⟩ := bind_ok h
      obtain ⟨ob', hob, h⟩ := bind_ok h
      cases h
      show (g (.listagg (mapExpr g tg v') sep ov (mapOrds g tg ob')) : Expr) = g (.listagg (mapExpr g tg v) sep ov (mapOrds g tg ob))
      rw [walkMapExpr hlf htb v v' hv, walkMapOrds hlf htb ob ob' hob]
  | .curTime f p, x', h => by
    rw [walkExpr_curTime] at h
    cases hsel : lf (.curTime f p) with
    | some r =>
      rw [hsel] at h
      cases (show r = _ from h)
      exact hlf _ _ hsel
    | none =>
      rw [hsel, Option.getD_none] at h
      cases h
      rfl
  | .session f, x', h => by
    rw [walkExpr_session] at h
    cases hsel : lf (.session f) with
    | some r =>
      rw [hsel] at h
      cases (show r = _ from h)
      exact hlf _ _ hsel
    | none =>
      rw [hsel, Option.getD_none] at h
      cases h
      rfl
  | .normalize v fo, x', h => by
    rw [walkExpr_normalize] at h
    cases hsel : lf (.normalize v fo) with
    | some r =>
      rw [hsel] at h
      cases (show r = _ from h)
      exact hlf _ _ hsel
    | none =>
      rw [hsel, Option.getD_none] at h
      obtain ⟨v', hv, h⟩ := bind_ok h
      cases h
      show (g (.normalize (mapExpr g tg v') fo) : Expr) = g (.normalize (mapExpr g tg v) fo)
      rw [walkMapExpr hlf htb v v' hv]
  | .query q, x', h => by
    rw [walkExpr_query] at h
    cases hsel : lf (.query q) with
    | some r =>
      rw [hsel] at h
      cases (show r = _ from h)
      exact hlf _ _ hsel
    | none =>
      rw [hsel, Option.getD_none] at h
      obtain ⟨q', hq, h⟩ := bind_ok h
      cases h
      show (g (.query (mapQuery g tg q')) : Expr) = g (.query (mapQuery g tg q))
      rw [walkMapQuery hlf htb q q' hq]
theorem walkMapOrd (hlf : ∀ e r, lf e = some (.ok r) → mapExpr g tg r = mapExpr g tg e) (htb : ∀ t t', tb t = .ok t' → tg t' = tg t) : ∀ (x x' : Ord), walkOrd lf tb x = .ok x' → mapOrd g tg x' = mapOrd g tg x
  | .mk v d nf, x', h => by
    rw [walkOrd_mk] at h
    obtain ⟨v', hv, h⟩ := bind_ok h
    cases h
    show (.mk (mapExpr g tg v') d nf : Ord) = .mk (mapExpr g tg v) d nf
    rw [walkMapExpr hlf htb v v' hv]
theorem walkMapBound (hlf : ∀ e r, lf e = some (.ok r) → mapExpr g tg r = mapExpr g tg e) (htb : ∀ t t', tb t = .ok t' → tg t' = tg t) : ∀ (x x' : Bound), walkBound lf tb x = .ok x' → mapBound g tg x' = mapBound g tg x
  | .bounded t e, x', h => by
    rw [walkBound_bounded] at h
    obtain ⟨e', he, h⟩ := bind_ok h
    cases h
    show (.bounded t (mapExpr g tg e') : Bound) = .bounded t (mapExpr g tg e)
    rw [walkMapExpr hlf htb e e' he]
  | .unbounded t, x', h => by
    rw [walkBound_unbounded] at h
    cases h
    rfl
  | .current, x', h => by
    rw [walkBound_current] at h
    cases h
    rfl
theorem walkMapWin (hlf : ∀ e r, lf e = some (.ok r) → mapExpr g tg r = mapExpr g tg e) (htb : ∀ t t', tb t = .ok t' → tg t' = tg t) : ∀ (x x' : Win), walkWin lf tb x = .ok x' → mapWin g tg x' = mapWin g tg x
  | .mk p ob ps f st en, x', h => by
    rw [walkWin_mk] at h
    obtain ⟨ob', hob, h⟩ := bind_ok h
    obtain ⟨ps', hps, h⟩ := bind_ok h
    obtain ⟨st', hst, h⟩ := bind_ok h
    obtain ⟨en', hen, h⟩ := bind_ok h
    cases h
    show (.mk p (mapOrds g tg ob') (mapExprs g tg ps') f (mapBound g tg st') (mapBound g tg en') : Win) = .mk p (mapOrds g tg ob) (mapExprs g tg ps) f (mapBound g tg st) (mapBound g tg en)
    rw [walkMapOrds hlf htb ob ob' hob, walkMapExprs hlf htb ps ps' hps, walkMapBound hlf htb st st' hst, walkMapBound hlf htb en en' hen]
theorem walkMapGrp (hlf : ∀ e r, lf e = some (.ok r) → mapExpr g tg r = mapExpr g tg e) (htb : ∀ t t', tb t = .ok t' → tg t' = tg t) : ∀ (x x' : Grp), walkGrp lf tb x = .ok x' → mapGrp g tg x' = mapGrp g tg x
  | .set vs, x', h => by
    rw [walkGrp_set] at h
    obtain ⟨vs', hvs, h⟩ := bind_ok h
    cases h
    show (.set (mapExprs g tg vs') : Grp) = .set (mapExprs g tg vs)
    rw [walkMapExprs hlf htb vs vs' hvs]
  | .sets gs, x', h => by
    rw [walkGrp_sets] at h
    obtain ⟨gs', hgs, h⟩ := bind_ok h
    cases h
    show (.sets (mapLists g tg gs') : Grp) = .sets (mapLists g tg gs)
    rw [walkMapLists hlf htb gs gs' hgs]
  | .cube vs, x', h => by
    rw [walkGrp_cube] at h
    obtain ⟨vs', hvs, h⟩ := bind_ok h
    cases h
    show (.cube (mapExprs g tg vs') : Grp) = .cube (mapExprs g tg vs)
    rw [walkMapExprs hlf htb vs vs' hvs]
  | .rollup vs, x', h => by
    rw [walkGrp_rollup] at h
    obtain ⟨vs', hvs, h⟩ := bind_ok h
    cases h
    show (.rollup (mapExprs g tg vs') : Grp) = .rollup (mapExprs g tg vs)
    rw [walkMapExprs hlf htb vs vs' hvs]
theorem walkMapGroupBy (hlf : ∀ e r, lf e = some (.ok r) → mapExpr g tg r = mapExpr g tg e) (htb : ∀ t t', tb t = .ok t' → tg t' = tg t) : ∀ (x x' : GroupBy), walkGroupBy lf tb x = .ok x' → mapGroupBy g tg x' = mapGroupBy g tg x
  | .mk gs d, x', h => by
    rw [walkGroupBy_mk] at h
    obtain ⟨gs', hgs, h⟩ := bind_ok h
    cases h
    show (.mk (mapGrps g tg gs') d : GroupBy) = .mk (mapGrps g tg gs) d
    rw [walkMapGrps hlf htb gs gs' hgs]
theorem walkMapQuery (hlf : ∀ e r, lf e = some (.ok r) → mapExpr g tg r = mapExpr g tg e) (htb : ∀ t t', tb t = .ok t' → tg t' = tg t) : ∀ (x x' : Query), walkQuery lf tb x = .ok x' → mapQuery g tg x' = mapQuery g tg x
  | .mk b off lim ob w, x', h => by
    rw [walkQuery_mk] at h
    obtain ⟨b', hb, h⟩ := bind_ok h
    obtain ⟨ob', hob, h⟩ := bind_ok h
    obtain ⟨w', hw, h⟩ := bind_ok h
    cases h
    show (.mk (mapQBody g tg b') off lim (mapOrds g tg ob') (mapNameds g tg w') : Query) = .mk (mapQBody g tg b) off lim (mapOrds g tg ob) (mapNameds g tg w)
    rw [walkMapQBody hlf htb b b' hb, walkMapOrds hlf htb ob ob' hob, walkMapNameds hlf htb w w' hw]
theorem walkMapQBody (hlf : ∀ e r, lf e = some (.ok r) → mapExpr g tg r = mapExpr g tg e) (htb : ∀ t t', tb t = .ok t' → tg t' = tg t) : ∀ (x x' : QBody), walkQBody lf tb x = .ok x' → mapQBody g tg x' = mapQBody g tg x
  | .select items fr wh gb hv d wins, x', h => by
    rw [walkQBody_select] at h
    obtain ⟨items', hitems, h⟩ := bind_ok h
    obtain ⟨fr', hfr, h⟩ := bind_ok h
    obtain ⟨wh', hwh, h⟩ := bind_ok h
    obtain ⟨gb', hgb, h⟩ := bind_ok h
    obtain ⟨hv', hhv, h⟩ := bind_ok h
    obtain ⟨wins', hwins, h⟩ := bind_ok h
    cases h
    show (.select (mapExprs g tg items') (mapRelOpt g tg fr') (mapExprOpt g tg wh') (mapGroupByOpt g tg gb') (mapExprOpt g tg hv') d (mapNamedWins g tg wins') : QBody) = .select (mapExprs g tg items) (mapRelOpt g tg fr) (mapExprOpt g tg wh) (mapGroupByOpt g tg gb) (mapExprOpt g tg hv) d (mapNamedWins g tg wins)
    rw [walkMapExprs hlf htb items items' hitems, walkMapRelOpt hlf htb fr fr' hfr, walkMapExprOpt hlf htb wh wh' hwh, walkMapGroupByOpt hlf htb gb gb' hgb, walkMapExprOpt hlf htb hv hv' hhv, walkMapNamedWins hlf htb wins wins' hwins]
  | .set k l r d, x', h => by
    rw [walkQBody_set] at h
    obtain ⟨l', hl, h⟩ := bind_ok h
    obtain ⟨r', hr, h⟩ := bind_ok h
    cases h
    show (.set k (mapQuery g tg l') (mapQuery g tg r') d : QBody) = .set k (mapQuery g tg l) (mapQuery g tg r) d
    rw [walkMapQuery hlf htb l l' hl, walkMapQuery hlf htb r r' hr]
  | .table t, x', h => by
    rw [walkQBody_table] at h
    obtain ⟨t', ht, h⟩ := bind_ok h
    cases h
    show (.table (tg t') : QBody) = .table (tg t)
    rw [htb t t' ht]
  | .values es, x', h => by
    rw [walkQBody_values] at h
    obtain ⟨es', hes, h⟩ := bind_ok h
    cases h
    show (.values (mapExprs g tg es') : QBody) = .values (mapExprs g tg es)
    rw [walkMapExprs hlf htb es es' hes]
theorem walkMapNamed (hlf : ∀ e r, lf e = some (.ok r) → mapExpr g tg r = mapExpr g tg e) (htb : ∀ t t', tb t = .ok t' → tg t' = tg t) : ∀ (x x' : Named), walkNamed lf tb x = .ok x' → mapNamed g tg x' = mapNamed g tg x
  | .mk r a cols, x', h => by
    rw [walkNamed_mk] at h
    obtain ⟨r', hr, h⟩ := bind_ok h
    cases h
    show (.mk (mapRel g tg r') a cols : Named) = .mk (mapRel g tg r) a cols
    rw [walkMapRel hlf htb r r' hr]
theorem walkMapRel (hlf : ∀ e r, lf e = some (.ok r) → mapExpr g tg r = mapExpr g tg e) (htb : ∀ t t', tb t = .ok t' → tg t' = tg t) : ∀ (x x' : Rel), walkRel lf tb x = .ok x' → mapRel g tg x' = mapRel g tg x
  | .table t, x', h => by
    rw [walkRel_table] at h
    obtain ⟨t', ht, h⟩ := bind_ok h
    cases h
    show (.table (tg t') : Rel) = .table (tg t)
    rw [htb t t' ht]
  | .query q, x', h => by
    rw [walkRel_query] at h
    obtain ⟨q', hq, h⟩ := bind_ok h
    cases h
    show (.query (mapQuery g tg q') : Rel) = .query (mapQuery g tg q)
    rw [walkMapQuery hlf htb q q' hq]
  | .aliased n, x', h => by
    rw [walkRel_aliased] at h
    obtain ⟨n', hn, h⟩ := bind_ok h
    cases h
    show (.aliased (mapNamed g tg n') : Rel) = .aliased (mapNamed g tg n)
    rw [walkMapNamed hlf htb n n' hn]
  | .join l r t nat cr, x', h => by
    rw [walkRel_join] at h
    obtain ⟨l', hl, h⟩ := bind_ok h
    obtain ⟨r', hr, h⟩ := bind_ok h
    obtain ⟨cr', hcr, h⟩ := bind_ok h
    cases h
    show (.join (mapRel g tg l') (mapRel g tg r') t nat (mapCritOpt g tg cr') : Rel) = .join (mapRel g tg l) (mapRel g tg r) t nat (mapCritOpt g tg cr)
    rw [walkMapRel hlf htb l l' hl, walkMapRel hlf htb r r' hr, walkMapCritOpt hlf htb cr cr' hcr]
  | .unnest as ord, x', h => by
    rw [walkRel_unnest] at h
    obtain ⟨as', has, h⟩ := bind_ok h
    cases h
    show (.unnest (mapExprs g tg as') ord : Rel) = .unnest (mapExprs g tg as) ord
    rw [walkMapExprs hlf htb as as' has]
  | .lateral q, x', h => by
    rw [walkRel_lateral] at h
    obtain ⟨q', hq, h⟩ := bind_ok h
    cases h
    show (.lateral (mapQuery g tg q') : Rel) = .lateral (mapQuery g tg q)
    rw [walkMapQuery hlf htb q q' hq]
  | .sample r t p, x', h => by
    rw [walkRel_sample] at h
    obtain ⟨r', hr, h⟩ := bind_ok h
    obtain ⟨p', hp, h⟩ := bind_ok h
    cases h
    show (.sample (mapRel g tg r') t (mapExpr g tg p') : Rel) = .sample (mapRel g tg r) t (mapExpr g tg p)
    rw [walkMapRel hlf htb r r' hr, walkMapExpr hlf htb p p' hp]
theorem walkMapCrit (hlf : ∀ e r, lf e = some (.ok r) → mapExpr g tg r = mapExpr g tg e) (htb : ∀ t t', tb t = .ok t' → tg t' = tg t) : ∀ (x x' : Crit), walkCrit lf tb x = .ok x' → mapCrit g tg x' = mapCrit g tg x
  | .using cols, x', h => by
    rw [walkCrit_using] at h
    cases h
    rfl
  | .on e, x', h => by
    rw [walkCrit_on] at h
    obtain ⟨e', he, h⟩ := bind_ok h
    cases h
    show (.on (mapExpr g tg e') : Crit) = .on (mapExpr g tg e)
    rw [walkMapExpr hlf htb e e' he]
theorem walkMapExprOpt (hlf : ∀ e r, lf e = some (.ok r) → mapExpr g tg r = mapExpr g tg e) (htb : ∀ t t', tb t = .ok t' → tg t' = tg t) : ∀ (x x' : Option Expr), walkExprOpt lf tb x = .ok x' → mapExprOpt g tg x' = mapExprOpt g tg x
  | none, x', h => by
    rw [walkExprOpt_none] at h
    cases h
    rfl
  | some x, x', h => by
    rw [walkExprOpt_some] at h
    obtain ⟨x', hx, h⟩ := bind_ok h
    cases h
    show some (mapExpr g tg x') = some (mapExpr g tg x)
    rw [walkMapExpr hlf htb x x' hx]
theorem walkMapExprs (hlf : ∀ e r, lf e = some (.ok r) → mapExpr g tg r = mapExpr g tg e) (htb : ∀ t t', tb t = .ok t' → tg t' = tg t) : ∀ (x x' : List Expr), walkExprs lf tb x = .ok x' → mapExprs g tg x' = mapExprs g tg x
  | [], x', h => by
    rw [walkExprs_nil] at h
    cases h
    rfl
  | x :: xs, x', h => by
    rw [walkExprs_cons] at h
    obtain ⟨x', hx, h⟩ := bind_ok h
    obtain ⟨xs', hxs, h⟩ := bind_ok h
    cases h
    show (mapExpr g tg x') :: (mapExprs g tg xs') = (mapExpr g tg x) :: (mapExprs g tg xs)
    rw [walkMapExpr hlf htb x x' hx, walkMapExprs hlf htb xs xs' hxs]
theorem walkMapLists (hlf : ∀ e r, lf e = some (.ok r) → mapExpr g tg r = mapExpr g tg e) (htb : ∀ t t', tb t = .ok t' → tg t' = tg t) : ∀ (x x' : List (List Expr)), walkLists lf tb x = .ok x' → mapLists g tg x' = mapLists g tg x
  | [], x', h => by
    rw [walkLists_nil] at h
    cases h
    rfl
  | x :: xs, x', h => by
    rw [walkLists_cons] at h
    obtain ⟨x', hx, h⟩ := bind_ok h
    obtain ⟨xs', hxs, h⟩ := bind_ok h
    cases h
    show (mapExprs g tg x') :: (mapLists g tg xs') = (mapExprs g tg x) :: (mapLists g tg xs)
    rw [walkMapExprs hlf htb x x' hx, walkMapLists hlf htb xs xs' hxs]
theorem walkMapWhens (hlf : ∀ e r, lf e = some (.ok r) → mapExpr g tg r = mapExpr g tg e) (htb : ∀ t t', tb t = .ok t' → tg t' = tg t) : ∀ (x x' : List (Expr × Expr)), walkWhens lf tb x = .ok x' → mapWhens g tg x' = mapWhens g tg x
  | [], x', h => by
    rw [walkWhens_nil] at h
    cases h
    rfl
  | (c, v) :: xs, x', h => by
    rw [walkWhens_cons] at h
    obtain ⟨c', hc, h⟩ := bind_ok h
    obtain ⟨v', hv, h⟩ := bind_ok h
    obtain ⟨xs', hxs, h⟩ := bind_ok h
    cases h
    show ((mapExpr g tg c'), (mapExpr g tg v')) :: (mapWhens g tg xs') = ((mapExpr g tg c), (mapExpr g tg v)) :: (mapWhens g tg xs)
    rw [walkMapExpr hlf htb c c' hc, walkMapExpr hlf htb v v' hv, walkMapWhens hlf htb xs xs' hxs]
theorem walkMapOrds (hlf : ∀ e r, lf e = some (.ok r) → mapExpr g tg r = mapExpr g tg e) (htb : ∀ t t', tb t = .ok t' → tg t' = tg t) : ∀ (x x' : List Ord), walkOrds lf tb x = .ok x' → mapOrds g tg x' = mapOrds g tg x
  | [], x', h => by
    rw [walkOrds_nil] at h
    cases h
    rfl
  | x :: xs, x', h => by
    rw [walkOrds_cons] at h
    obtain ⟨x', hx, h⟩ := bind_ok h
    obtain ⟨xs', hxs, h⟩ := bind_ok h
    cases h
    show (mapOrd g tg x') :: (mapOrds g tg xs') = (mapOrd g tg x) :: (mapOrds g tg xs)
    rw [walkMapOrd hlf htb x x' hx, walkMapOrds hlf htb xs xs' hxs]
theorem walkMapWinOpt (hlf : ∀ e r, lf e = some (.ok r) → mapExpr g tg r = mapExpr g tg e) (htb : ∀ t t', tb t = .ok t' → tg t' = tg t) : ∀ (x x' : Option Win), walkWinOpt lf tb x = .ok x' → mapWinOpt g tg x' = mapWinOpt g tg x
  | none, x', h => by
    rw [walkWinOpt_none] at h
    cases h
    rfl
  | some x, x', h => by
    rw [walkWinOpt_some] at h
    obtain ⟨x', hx, h⟩ := bind_ok h
    cases h
    show some (mapWin g tg x') = some (mapWin g tg x)
    rw [walkMapWin hlf htb x x' hx]
theorem walkMapGrps (hlf : ∀ e r, lf e = some (.ok r) → mapExpr g tg r = mapExpr g tg e) (htb : ∀ t t', tb t = .ok t' → tg t' = tg t) : ∀ (x x' : List Grp), walkGrps lf tb x = .ok x' → mapGrps g tg x' = mapGrps g tg x
  | [], x', h => by
    rw [walkGrps_nil] at h
    cases h
    rfl
  | x :: xs, x', h => by
    rw [walkGrps_cons] at h
    obtain ⟨x', hx, h⟩ := bind_ok h
    obtain ⟨xs', hxs, h⟩ := bind_ok h
    cases h
    show (mapGrp g tg x') :: (mapGrps g tg xs') = (mapGrp g tg x) :: (mapGrps g tg xs)
    rw [walkMapGrp hlf htb x x' hx, walkMapGrps hlf htb xs xs' hxs]
theorem walkMapGroupByOpt (hlf : ∀ e r, lf e = some (.ok r) → mapExpr g tg r = mapExpr g tg e) (htb : ∀ t t', tb t = .ok t' → tg t' = tg t) : ∀ (x x' : Option GroupBy), walkGroupByOpt lf tb x = .ok x' → mapGroupByOpt g tg x' = mapGroupByOpt g tg x
  | none, x', h => by
    rw [walkGroupByOpt_none] at h
    cases h
    rfl
  | some x, x', h => by
    rw [walkGroupByOpt_some] at h
    obtain ⟨x', hx, h⟩ := bind_ok h
    cases h
    show some (mapGroupBy g tg x') = some (mapGroupBy g tg x)
    rw [walkMapGroupBy hlf htb x x' hx]
theorem walkMapNamedWins (hlf : ∀ e r, lf e = some (.ok r) → mapExpr g tg r = mapExpr g tg e) (htb : ∀ t t', tb t = .ok t' → tg t' = tg t) : ∀ (x x' : List (Str × Win)), walkNamedWins lf tb x = .ok x' → mapNamedWins g tg x' = mapNamedWins g tg x
  | [], x', h => by
    rw [walkNamedWins_nil] at h
    cases h
    rfl
  | (n, w) :: xs, x', h => by
    rw [walkNamedWins_cons] at h
    obtain ⟨w', hw, h⟩ := bind_ok h
    obtain ⟨xs', hxs, h⟩ := bind_ok h
    cases h
    show (n, (mapWin g tg w')) :: (mapNamedWins g tg xs') = (n, (mapWin g tg w)) :: (mapNamedWins g tg xs)
    rw [walkMapWin hlf htb w w' hw, walkMapNamedWins hlf htb xs xs' hxs]
theorem walkMapNameds (hlf : ∀ e r, lf e = some (.ok r) → mapExpr g tg r = mapExpr g tg e) (htb : ∀ t t', tb t = .ok t' → tg t' = tg t) : ∀ (x x' : List Named), walkNameds lf tb x = .ok x' → mapNameds g tg x' = mapNameds g tg x
  | [], x', h => by
    rw [walkNameds_nil] at h
    cases h
    rfl
  | x :: xs, x', h => by
    rw [walkNameds_cons] at h
    obtain ⟨x', hx, h⟩ := bind_ok h
    obtain ⟨xs', hxs, h⟩ := bind_ok h
    cases h
    show (mapNamed g tg x') :: (mapNameds g tg xs') = (mapNamed g tg x) :: (mapNameds g tg xs)
    rw [walkMapNamed hlf htb x x' hx, walkMapNameds hlf htb xs xs' hxs]
theorem walkMapRelOpt (hlf : ∀ e r, lf e = some (.ok r) → mapExpr g tg r = mapExpr g tg e) (htb : ∀ t t', tb t = .ok t' → tg t' = tg t) : ∀ (x x' : Option Rel), walkRelOpt lf tb x = .ok x' → mapRelOpt g tg x' = mapRelOpt g tg x
  | none, x', h => by
    rw [walkRelOpt_none] at h
    cases h
    rfl
  | some x, x', h => by
    rw [walkRelOpt_some] at h
    obtain ⟨x', hx, h⟩ := bind_ok h
    cases h
    show some (mapRel g tg x') = some (mapRel g tg x)
    rw [walkMapRel hlf htb x x' hx]
theorem walkMapCritOpt (hlf : ∀ e r, lf e = some (.ok r) → mapExpr g tg r = mapExpr g tg e) (htb : ∀ t t', tb t = .ok t' → tg t' = tg t) : ∀ (x x' : Option Crit), walkCritOpt lf tb x = .ok x' → mapCritOpt g tg x' = mapCritOpt g tg x
  | none, x', h => by
    rw [walkCritOpt_none] at h
    cases h
    rfl
  | some x, x', h => by
    rw [walkCritOpt_some] at h
    obtain ⟨x', hx, h⟩ := bind_ok h
    cases h
    show some (mapCrit g tg x') = some (mapCrit g tg x)
    rw [walkMapCrit hlf htb x x' hx]
end

end Treeno
