import Verif.Walk
/-!
# Equation lemmas of the functions in `Verif/Walk.lean`, one per match arm (all by `rfl`)
-/
set_option linter.unusedVariables false
namespace Treeno

theorem walkExpr_lit (lf) (tb) (v) (t) :
    walkExpr lf tb (.lit v t : Expr) =
      ( (lf (.lit v t)).getD (.ok (.lit v t))) := rfl
theorem walkExpr_field (lf) (tb) (n) (tn) (t) :
    walkExpr lf tb (.field n tn t : Expr) =
      ( (lf (.field n tn t)).getD (.ok (.field n tn t))) := rfl
theorem walkExpr_fieldOf (lf) (tb) (n) (b) (t) :
    walkExpr lf tb (.fieldOf n b t : Expr) =
      ( (lf (.fieldOf n b t)).getD (do
      let b' ← walkExpr lf tb b
      .ok (.fieldOf n b' t))) := rfl
theorem walkExpr_alias (lf) (tb) (v) (n) :
    walkExpr lf tb (.alias v n : Expr) =
      ( (lf (.alias v n)).getD (do
      let v' ← walkExpr lf tb v
      .ok (.alias v' n))) := rfl
theorem walkExpr_star (lf) (tb) (tn) (t) :
    walkExpr lf tb (.star tn t : Expr) =
      ( (lf (.star tn t)).getD (.ok (.star tn t))) := rfl
theorem walkExpr_starOf (lf) (tb) (b) (t) :
    walkExpr lf tb (.starOf b t : Expr) =
      ( (lf (.starOf b t)).getD (do
      let b' ← walkExpr lf tb b
      .ok (.starOf b' t))) := rfl
theorem walkExpr_aliasedStar (lf) (tb) (s) (as) :
    walkExpr lf tb (.aliasedStar s as : Expr) =
      ( (lf (.aliasedStar s as)).getD (do
      let s' ← walkExpr lf tb s
      .ok (.aliasedStar s' as))) := rfl
theorem walkExpr_var (lf) (tb) (n) :
    walkExpr lf tb (.var n : Expr) =
      ( (lf (.var n)).getD (.ok (.var n))) := rfl
theorem walkExpr_lam (lf) (tb) (ins) (b) :
    walkExpr lf tb (.lam ins b : Expr) =
      ( (lf (.lam ins b)).getD (do
      let b' ← walkExpr lf tb b
      .ok (.lam ins b'))) := rfl
theorem walkExpr_un (lf) (tb) (op) (v) :
    walkExpr lf tb (.un op v : Expr) =
      ( (lf (.un op v)).getD (do
      let v' ← walkExpr lf tb v
      .ok (.un op v'))) := rfl
theorem walkExpr_bin (lf) (tb) (op) (l) (r) :
    walkExpr lf tb (.bin op l r : Expr) =
      ( (lf (.bin op l r)).getD (do
      let l' ← walkExpr lf tb l
      let r' ← walkExpr lf tb r
      .ok (.bin op l' r'))) := rfl
theorem walkExpr_not (lf) (tb) (v) :
    walkExpr lf tb (.not v : Expr) =
      ( (lf (.not v)).getD (do
      let v' ← walkExpr lf tb v
      .ok (.not v'))) := rfl
theorem walkExpr_isNull (lf) (tb) (v) :
    walkExpr lf tb (.isNull v : Expr) =
      ( (lf (.isNull v)).getD (do
      let v' ← walkExpr lf tb v
      .ok (.isNull v'))) := rfl
theorem walkExpr_between (lf) (tb) (v) (l) (u) :
    walkExpr lf tb (.between v l u : Expr) =
      ( (lf (.between v l u)).getD (do
      let v' ← walkExpr lf tb v
      let l' ← walkExpr lf tb l
      let u' ← walkExpr lf tb u
      .ok (.between v' l' u'))) := rfl
theorem walkExpr_array (lf) (tb) (vs) :
    walkExpr lf tb (.array vs : Expr) =
      ( (lf (.array vs)).getD (do
      let vs' ← walkExprs lf tb vs
      .ok (.array vs'))) := rfl
theorem walkExpr_inQuery (lf) (tb) (v) (q) :
    walkExpr lf tb (.inQuery v q : Expr) =
      ( (lf (.inQuery v q)).getD (do
      let v' ← walkExpr lf tb v
      let q' ← walkQuery lf tb q
      .ok (.inQuery v' q'))) := rfl
theorem walkExpr_inList (lf) (tb) (v) (es) :
    walkExpr lf tb (.inList v es : Expr) =
      ( (lf (.inList v es)).getD (do
      let v' ← walkExpr lf tb v
      let es' ← walkExprs lf tb es
      .ok (.inList v' es'))) := rfl
theorem walkExpr_like (lf) (tb) (v) (p) (e) :
    walkExpr lf tb (.like v p e : Expr) =
      ( (lf (.like v p e)).getD (do
      let v' ← walkExpr lf tb v
      let p' ← walkExpr lf tb p
      let e' ← walkExprOpt lf tb e
      .ok (.like v' p' e'))) := rfl
theorem walkExpr_typeCtor (lf) (tb) (v) (t) :
    walkExpr lf tb (.typeCtor v t : Expr) =
      ( (lf (.typeCtor v t)).getD (.ok (.typeCtor v t))) := rfl
theorem walkExpr_row (lf) (tb) (vs) :
    walkExpr lf tb (.row vs : Expr) =
      ( (lf (.row vs)).getD (do
      let vs' ← walkExprs lf tb vs
      .ok (.row vs'))) := rfl
theorem walkExpr_interval (lf) (tb) (v) (f) (t) :
    walkExpr lf tb (.interval v f t : Expr) =
      ( (lf (.interval v f t)).getD (.ok (.interval v f t))) := rfl
theorem walkExpr_cast (lf) (tb) (tr) (e) (t) :
    walkExpr lf tb (.cast tr e t : Expr) =
      ( (lf (.cast tr e t)).getD (do
      let e' ← walkExpr lf tb e
      .ok (.cast tr e' t))) := rfl
theorem walkExpr_subscript (lf) (tb) (v) (i) :
    walkExpr lf tb (.subscript v i : Expr) =
      ( (lf (.subscript v i)).getD (do
      let v' ← walkExpr lf tb v
      let i' ← walkExpr lf tb i
      .ok (.subscript v' i'))) := rfl
theorem walkExpr_case (lf) (tb) (v) (bs) (e) :
    walkExpr lf tb (.case v bs e : Expr) =
      ( (lf (.case v bs e)).getD (do
      let v' ← walkExprOpt lf tb v
      let bs' ← walkWhens lf tb bs
      let e' ← walkExprOpt lf tb e
      .ok (.case v' bs' e'))) := rfl
theorem walkExpr_func (lf) (tb) (f) (as) :
    walkExpr lf tb (.func f as : Expr) =
      ( (lf (.func f as)).getD (do
      let as' ← walkExprs lf tb as
      .ok (.func f as'))) := rfl
theorem walkExpr_agg (lf) (tb) (f) (as) (ob) (fl) (w) (ign) :
    walkExpr lf tb (.agg f as ob fl w ign : Expr) =
      ( (lf (.agg f as ob fl w ign)).getD (do
      let as' ← walkExprs lf tb as
      let ob' ← walkOrds lf tb ob
      let fl' ← walkExprOpt lf tb fl
      let w' ← walkWinOpt lf tb w
      .ok (.agg f as' ob' fl' w' ign))) := rfl
theorem walkExpr_listagg (lf) (tb) (v) (sep) (ov) (ob) :
    walkExpr lf tb (.listagg v sep ov ob : Expr) =
      ( (lf (.listagg v sep ov ob)).getD (do
      let v' ← walkExpr lf tb v
      let ob' ← walkOrds lf tb ob
      .ok (.listagg v' sep ov ob'))) := rfl
theorem walkExpr_curTime (lf) (tb) (f) (p) :
    walkExpr lf tb (.curTime f p : Expr) =
      ( (lf (.curTime f p)).getD (.ok (.curTime f p))) := rfl
theorem walkExpr_session (lf) (tb) (f) :
    walkExpr lf tb (.session f : Expr) =
      ( (lf (.session f)).getD (.ok (.session f))) := rfl
theorem walkExpr_normalize (lf) (tb) (v) (fo) :
    walkExpr lf tb (.normalize v fo : Expr) =
      ( (lf (.normalize v fo)).getD (do
      let v' ← walkExpr lf tb v
      .ok (.normalize v' fo))) := rfl
theorem walkExpr_query (lf) (tb) (q) :
    walkExpr lf tb (.query q : Expr) =
      ( (lf (.query q)).getD (do
      let q' ← walkQuery lf tb q
      .ok (.query q'))) := rfl
theorem walkOrd_mk (lf) (tb) (v) (d) (nf) :
    walkOrd lf tb (.mk v d nf : Ord) =
      ( do
    let v' ← walkExpr lf tb v
    .ok (.mk v' d nf)) := rfl
theorem walkBound_bounded (lf) (tb) (t) (e) :
    walkBound lf tb (.bounded t e : Bound) =
      ( do
    let e' ← walkExpr lf tb e
    .ok (.bounded t e')) := rfl
theorem walkBound_unbounded (lf) (tb) (t) :
    walkBound lf tb (.unbounded t : Bound) =
      ( .ok (.unbounded t)) := rfl
theorem walkBound_current (lf) (tb) :
    walkBound lf tb (.current : Bound) =
      ( .ok (.current)) := rfl
theorem walkWin_mk (lf) (tb) (p) (ob) (ps) (f) (st) (en) :
    walkWin lf tb (.mk p ob ps f st en : Win) =
      ( do
    let ob' ← walkOrds lf tb ob
    let ps' ← walkExprs lf tb ps
    let st' ← walkBound lf tb st
    let en' ← walkBound lf tb en
    .ok (.mk p ob' ps' f st' en')) := rfl
theorem walkGrp_set (lf) (tb) (vs) :
    walkGrp lf tb (.set vs : Grp) =
      ( do
    let vs' ← walkExprs lf tb vs
    .ok (.set vs')) := rfl
theorem walkGrp_sets (lf) (tb) (gs) :
    walkGrp lf tb (.sets gs : Grp) =
      ( do
    let gs' ← walkLists lf tb gs
    .ok (.sets gs')) := rfl
theorem walkGrp_cube (lf) (tb) (vs) :
    walkGrp lf tb (.cube vs : Grp) =
      ( do
    let vs' ← walkExprs lf tb vs
    .ok (.cube vs')) := rfl
theorem walkGrp_rollup (lf) (tb) (vs) :
    walkGrp lf tb (.rollup vs : Grp) =
      ( do
    let vs' ← walkExprs lf tb vs
    .ok (.rollup vs')) := rfl
theorem walkGroupBy_mk (lf) (tb) (gs) (d) :
    walkGroupBy lf tb (.mk gs d : GroupBy) =
      ( do
    let gs' ← walkGrps lf tb gs
    .ok (.mk gs' d)) := rfl
theorem walkQuery_mk (lf) (tb) (b) (off) (lim) (ob) (w) :
    walkQuery lf tb (.mk b off lim ob w : Query) =
      ( do
    let b' ← walkQBody lf tb b
    let ob' ← walkOrds lf tb ob
    let w' ← walkNameds lf tb w
    .ok (.mk b' off lim ob' w')) := rfl
theorem walkQBody_select (lf) (tb) (items) (fr) (wh) (gb) (hv) (d) (wins) :
    walkQBody lf tb (.select items fr wh gb hv d wins : QBody) =
      ( do
    let items' ← walkExprs lf tb items
    let fr' ← walkRelOpt lf tb fr
    let wh' ← walkExprOpt lf tb wh
    let gb' ← walkGroupByOpt lf tb gb
    let hv' ← walkExprOpt lf tb hv
    let wins' ← walkNamedWins lf tb wins
    .ok (.select items' fr' wh' gb' hv' d wins')) := rfl
theorem walkQBody_set (lf) (tb) (k) (l) (r) (d) :
    walkQBody lf tb (.set k l r d : QBody) =
      ( do
    let l' ← walkQuery lf tb l
    let r' ← walkQuery lf tb r
    .ok (.set k l' r' d)) := rfl
theorem walkQBody_table (lf) (tb) (t) :
    walkQBody lf tb (.table t : QBody) =
      ( do
    let t' ← tb t
    .ok (.table t')) := rfl
theorem walkQBody_values (lf) (tb) (es) :
    walkQBody lf tb (.values es : QBody) =
      ( do
    let es' ← walkExprs lf tb es
    .ok (.values es')) := rfl
theorem walkNamed_mk (lf) (tb) (r) (a) (cols) :
    walkNamed lf tb (.mk r a cols : Named) =
      ( do
    let r' ← walkRel lf tb r
    .ok (.mk r' a cols)) := rfl
theorem walkRel_table (lf) (tb) (t) :
    walkRel lf tb (.table t : Rel) =
      ( do
    let t' ← tb t
    .ok (.table t')) := rfl
theorem walkRel_query (lf) (tb) (q) :
    walkRel lf tb (.query q : Rel) =
      ( do
    let q' ← walkQuery lf tb q
    .ok (.query q')) := rfl
theorem walkRel_aliased (lf) (tb) (n) :
    walkRel lf tb (.aliased n : Rel) =
      ( do
    let n' ← walkNamed lf tb n
    .ok (.aliased n')) := rfl
theorem walkRel_join (lf) (tb) (l) (r) (t) (nat) (cr) :
    walkRel lf tb (.join l r t nat cr : Rel) =
      ( do
    let l' ← walkRel lf tb l
    let r' ← walkRel lf tb r
    let cr' ← walkCritOpt lf tb cr
    .ok (.join l' r' t nat cr')) := rfl
theorem walkRel_unnest (lf) (tb) (as) (ord) :
    walkRel lf tb (.unnest as ord : Rel) =
      ( do
    let as' ← walkExprs lf tb as
    .ok (.unnest as' ord)) := rfl
theorem walkRel_lateral (lf) (tb) (q) :
    walkRel lf tb (.lateral q : Rel) =
      ( do
    let q' ← walkQuery lf tb q
    .ok (.lateral q')) := rfl
theorem walkRel_sample (lf) (tb) (r) (t) (p) :
    walkRel lf tb (.sample r t p : Rel) =
      ( do
    let r' ← walkRel lf tb r
    let p' ← walkExpr lf tb p
    .ok (.sample r' t p')) := rfl
theorem walkCrit_using (lf) (tb) (cols) :
    walkCrit lf tb (.using cols : Crit) =
      ( .ok (.using cols)) := rfl
theorem walkCrit_on (lf) (tb) (e) :
    walkCrit lf tb (.on e : Crit) =
      ( do
    let e' ← walkExpr lf tb e
    .ok (.on e')) := rfl
theorem walkExprOpt_none (lf) (tb) :
    walkExprOpt lf tb (none : Option Expr) =
      ( .ok none) := rfl
theorem walkExprOpt_some (lf) (tb) (x) :
    walkExprOpt lf tb (some x : Option Expr) =
      ( do
    let x' ← walkExpr lf tb x
    .ok (some x')) := rfl
theorem walkExprs_nil (lf) (tb) :
    walkExprs lf tb ([] : List Expr) =
      ( .ok []) := rfl
theorem walkExprs_cons (lf) (tb) (x) (xs) :
    walkExprs lf tb (x :: xs : List Expr) =
      ( do
    let x' ← walkExpr lf tb x
    let xs' ← walkExprs lf tb xs
    .ok (x' :: xs')) := rfl
theorem walkLists_nil (lf) (tb) :
    walkLists lf tb ([] : List (List Expr)) =
      ( .ok []) := rfl
theorem walkLists_cons (lf) (tb) (x) (xs) :
    walkLists lf tb (x :: xs : List (List Expr)) =
      ( do
    let x' ← walkExprs lf tb x
    let xs' ← walkLists lf tb xs
    .ok (x' :: xs')) := rfl
theorem walkWhens_nil (lf) (tb) :
    walkWhens lf tb ([] : List (Expr × Expr)) =
      ( .ok []) := rfl
theorem walkWhens_cons (lf) (tb) (c) (v) (xs) :
    walkWhens lf tb ((c, v) :: xs : List (Expr × Expr)) =
      ( do
    let c' ← walkExpr lf tb c
    let v' ← walkExpr lf tb v
    let xs' ← walkWhens lf tb xs
    .ok ((c', v') :: xs')) := rfl
theorem walkOrds_nil (lf) (tb) :
    walkOrds lf tb ([] : List Ord) =
      ( .ok []) := rfl
theorem walkOrds_cons (lf) (tb) (x) (xs) :
    walkOrds lf tb (x :: xs : List Ord) =
      ( do
    let x' ← walkOrd lf tb x
    let xs' ← walkOrds lf tb xs
    .ok (x' :: xs')) := rfl
theorem walkWinOpt_none (lf) (tb) :
    walkWinOpt lf tb (none : Option Win) =
      ( .ok none) := rfl
theorem walkWinOpt_some (lf) (tb) (x) :
    walkWinOpt lf tb (some x : Option Win) =
      ( do
    let x' ← walkWin lf tb x
    .ok (some x')) := rfl
theorem walkGrps_nil (lf) (tb) :
    walkGrps lf tb ([] : List Grp) =
      ( .ok []) := rfl
theorem walkGrps_cons (lf) (tb) (x) (xs) :
    walkGrps lf tb (x :: xs : List Grp) =
      ( do
    let x' ← walkGrp lf tb x
    let xs' ← walkGrps lf tb xs
    .ok (x' :: xs')) := rfl
theorem walkGroupByOpt_none (lf) (tb) :
    walkGroupByOpt lf tb (none : Option GroupBy) =
      ( .ok none) := rfl
theorem walkGroupByOpt_some (lf) (tb) (x) :
    walkGroupByOpt lf tb (some x : Option GroupBy) =
      ( do
    let x' ← walkGroupBy lf tb x
    .ok (some x')) := rfl
theorem walkNamedWins_nil (lf) (tb) :
    walkNamedWins lf tb ([] : List (Str × Win)) =
      ( .ok []) := rfl
theorem walkNamedWins_cons (lf) (tb) (n) (w) (xs) :
    walkNamedWins lf tb ((n, w) :: xs : List (Str × Win)) =
      ( do
    let w' ← walkWin lf tb w
    let xs' ← walkNamedWins lf tb xs
    .ok ((n, w') :: xs')) := rfl
theorem walkNameds_nil (lf) (tb) :
    walkNameds lf tb ([] : List Named) =
      ( .ok []) := rfl
theorem walkNameds_cons (lf) (tb) (x) (xs) :
    walkNameds lf tb (x :: xs : List Named) =
      ( do
    let x' ← walkNamed lf tb x
    let xs' ← walkNameds lf tb xs
    .ok (x' :: xs')) := rfl
theorem walkRelOpt_none (lf) (tb) :
    walkRelOpt lf tb (none : Option Rel) =
      ( .ok none) := rfl
theorem walkRelOpt_some (lf) (tb) (x) :
    walkRelOpt lf tb (some x : Option Rel) =
      ( do
    let x' ← walkRel lf tb x
    .ok (some x')) := rfl
theorem walkCritOpt_none (lf) (tb) :
    walkCritOpt lf tb (none : Option Crit) =
      ( .ok none) := rfl
theorem walkCritOpt_some (lf) (tb) (x) :
    walkCritOpt lf tb (some x : Option Crit) =
      ( do
    let x' ← walkCrit lf tb x
    .ok (some x')) := rfl

end Treeno
