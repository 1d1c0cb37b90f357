import Verif.Convert
/-!
# Equation lemmas of the functions in `Verif/Convert.lean`, one per match arm (all by `rfl`)
-/
set_option linter.unusedVariables false
namespace Treeno

theorem CE_conv_or_ (l) (r) :
    CE.conv (.or_ l r : CE) =
      ( do
    let a ← l.conv
    let b ← r.conv
    Expr.build (.bin .or a b)) := rfl
theorem CE_conv_and_ (l) (r) :
    CE.conv (.and_ l r : CE) =
      ( do
    let a ← l.conv
    let b ← r.conv
    Expr.build (.bin .and a b)) := rfl
theorem CE_conv_not_ (v) :
    CE.conv (.not_ v : CE) =
      ( do
    let e ← v.conv
    Expr.build (.not e)) := rfl
theorem CE_conv_cmp (op) (l) (r) :
    CE.conv (.cmp op l r : CE) =
      ( do
    let a ← l.conv
    let b ← r.conv
    let o ← cmpOf op
    Expr.build (.bin o a b)) := rfl
theorem CE_conv_between (neg) (v) (l) (u) :
    CE.conv (.between neg v l u : CE) =
      ( do
    let a ← v.conv
    let b ← l.conv
    let c ← u.conv
    negIf neg (.between a b c)) := rfl
theorem CE_conv_inList (neg) (v) (es) :
    CE.conv (.inList neg v es : CE) =
      ( do
    let a ← v.conv
    let bs ← CE.convs es
    negIf neg (.inList a bs)) := rfl
theorem CE_conv_inSub (neg) (v) (q) :
    CE.conv (.inSub neg v q : CE) =
      ( do
    let a ← v.conv
    let b ← q.conv
    let b' ← noneIs .unmodelled b
    negIf neg (.inQuery a b')) := rfl
theorem CE_conv_like (neg) (v) (p) (esc) :
    CE.conv (.like neg v p esc : CE) =
      ( do
    let a ← v.conv
    let c ← dropNone (CE.isNoneOpt esc) (CE.convOpt esc)
    let b ← p.conv
    negIf neg (.like a b c)) := rfl
theorem CE_conv_isNull (neg) (v) :
    CE.conv (.isNull neg v : CE) =
      ( do
    let a ← v.conv
    negIf neg (.isNull a)) := rfl
theorem CE_conv_distinct (neg) (l) (r) :
    CE.conv (.distinct neg l r : CE) =
      ( do
    let a ← l.conv
    let b ← r.conv
    negIf neg (.bin .distinct a b)) := rfl
theorem CE_conv_quantified (u1_) (u2_) (l) (u3_) :
    CE.conv (.quantified u1_ u2_ l u3_ : CE) =
      ( do
    let _ ← visited l.isNone l.conv
    .error .notImplemented) := rfl
theorem CE_conv_concat (l) (r) :
    CE.conv (.concat l r : CE) =
      ( do
    let a ← l.conv
    let b ← r.conv
    Expr.build (.func .concat [a, b])) := rfl
theorem CE_conv_arith (op) (l) (r) :
    CE.conv (.arith op l r : CE) =
      ( do
    let a ← l.conv
    let b ← r.conv
    let o ← arithOf op
    Expr.build (.bin o a b)) := rfl
theorem CE_conv_sign (op) (v) :
    CE.conv (.sign op v : CE) =
      ( do
    let a ← v.conv
    let o ← signOf op
    Expr.build (.un o a)) := rfl
theorem CE_conv_atZone (v) (z) :
    CE.conv (.atZone v z : CE) =
      ( do
    let _ ← visited v.isNone v.conv
    zoneOf z) := rfl
theorem CE_conv_null :
    CE.conv (.null : CE) =
      ( Expr.build (.lit none .unknown)) := rfl
theorem CE_conv_interval (sg) (s) (f) (t) :
    CE.conv (.interval sg s f t : CE) =
      ( do
    let v ← s.conv
    Expr.build (.interval (intervalValue (sg.any fun t => t.text == c% "-") v) f.text (t.map Tok.text))) := rfl
theorem CE_conv_typeCtor (n) (s) :
    CE.conv (.typeCtor n s : CE) =
      ( do
    let v ← s.conv
    let t ← identText n
    Expr.build (.typeCtor v t)) := rfl
theorem CE_conv_doublePrecision (s) :
    CE.conv (.doublePrecision s : CE) =
      ( do
    let _ ← s.conv
    .error .typeError) := rfl
theorem CE_conv_num (m) (t) :
    CE.conv (.num m t : CE) =
      ( numLit m t) := rfl
theorem CE_conv_bool (t) :
    CE.conv (.bool t : CE) =
      ( Expr.build (.lit (some (.bool (upper t.text == c% "TRUE"))) .boolean)) := rfl
theorem CE_conv_str (s) :
    CE.conv (.str s : CE) =
      ( do
    let v ← s.conv
    let ty ← mkType (c% "VARCHAR") [(c% "max_chars", .int v.length)]
    Expr.build (.lit (some (.str v)) ty)) := rfl
theorem CE_conv_binary (u1_) :
    CE.conv (.binary u1_ : CE) =
      ( nothing) := rfl
theorem CE_conv_param :
    CE.conv (.param : CE) =
      ( .error .notImplemented) := rfl
theorem CE_conv_row (es) :
    CE.conv (.row es : CE) =
      ( do
    let vs ← CE.convs es
    Expr.build (.row vs)) := rfl
theorem CE_conv_rowKw (es) :
    CE.conv (.rowKw es : CE) =
      ( do
    let vs ← CE.convs es
    Expr.build (.row vs)) := rfl
theorem CE_conv_listagg (u1_) (e) (sep) (ov) (ob) :
    CE.conv (.listagg u1_ e sep ov ob : CE) =
      ( do
    let s ← CStr.convOpt sep
    let f ← overflowOf ov
    let o ← CSort.convs ob
    let v ← e.conv
    Expr.build (.listagg v (s.getD (c% " ")) f o)) := rfl
theorem CE_conv_callStar (name) (label) (fl) (w) :
    CE.conv (.callStar name label fl w : CE) =
      ( do
    let n ← identTexts name
    let w' ← CWin.convOpt w
    let f ← CE.convOpt fl
    let l ← identOpt label
    callOf n [.star l .unknown] [] f none w') := rfl
theorem CE_conv_call (name) (u1_) (args) (ob) (fl) (ign) (w) :
    CE.conv (.call name u1_ args ob fl ign w : CE) =
      ( do
    let n ← identTexts name
    let w' ← CWin.convOpt w
    let o ← CSort.convs ob
    let f ← CE.convOpt fl
    let as ← CE.convs args
    callOf n as o f ign w') := rfl
theorem CE_conv_lam (u1_) (ids) (b) :
    CE.conv (.lam u1_ ids b : CE) =
      ( do
    let ns ← identTexts ids
    let e ← b.conv
    lambdaOf ns e) := rfl
theorem CE_conv_sub (q) :
    CE.conv (.sub q : CE) =
      ( do
    let q' ← q.conv
    let q'' ← noneIs .unmodelled q'
    .ok (.query q'')) := rfl
theorem CE_conv_case (v) (ws) (e) :
    CE.conv (.case v ws e : CE) =
      ( do
    let bs ← CWhen.convs ws
    let a ← dropNone (CE.isNoneOpt v) (CE.convOpt v)
    let c ← CE.convOpt e
    Expr.build (.case a bs c)) := rfl
theorem CE_conv_cast (tr) (e) (ty) (u1_) :
    CE.conv (.cast tr e ty u1_ : CE) =
      ( do
    let a ← e.conv
    let t ← ty.conv
    Expr.build (.cast tr a t)) := rfl
theorem CE_conv_array (es) :
    CE.conv (.array es : CE) =
      ( do
    let vs ← CE.convs es
    Expr.build (.array vs)) := rfl
theorem CE_conv_subscript (v) (i) :
    CE.conv (.subscript v i : CE) =
      ( do
    let a ← v.conv
    let b ← i.conv
    Expr.build (.subscript a b)) := rfl
theorem CE_conv_col (t) :
    CE.conv (.col t : CE) =
      ( do
    let n ← identText t
    Expr.build (.field n none .unknown)) := rfl
theorem CE_conv_deref (v) (n) :
    CE.conv (.deref v n : CE) =
      ( do
    let a ← v.conv
    let s ← identText n
    derefOf a s) := rfl
theorem CE_conv_dateTime (t) (p) :
    CE.conv (.dateTime t p : CE) =
      ( dateTimeOf t p) := rfl
theorem CE_conv_session (t) :
    CE.conv (.session t : CE) =
      ( sessionOf t) := rfl
theorem CE_conv_normalize (v) (f) :
    CE.conv (.normalize v f : CE) =
      ( do
    let a ← v.conv
    let fo ← formOf f
    Expr.build (.normalize a fo)) := rfl
theorem CE_conv_paren (e) :
    CE.conv (.paren e : CE) =
      ( e.conv) := rfl
theorem CE_conv_exists_ (q) :
    CE.conv (.exists_ q : CE) =
      ( do
    let _ ← dropNone false q.conv
    nothing) := rfl
theorem CE_conv_position (l) (r) :
    CE.conv (.position l r : CE) =
      ( do
    let _ ← visited l.isNone l.conv
    let _ ← visited r.isNone r.conv
    nothing) := rfl
theorem CE_conv_substring (v) (f) (n) :
    CE.conv (.substring v f n : CE) =
      ( do
    let _ ← visited v.isNone v.conv
    let _ ← visited f.isNone f.conv
    let _ ← dropNone (CE.isNoneOpt n) (CE.convOpt n)
    nothing) := rfl
theorem CE_conv_extract (t) (v) :
    CE.conv (.extract t v : CE) =
      ( do
    let _ ← identText t
    let _ ← visited v.isNone v.conv
    nothing) := rfl
theorem CE_conv_trimFrom (u1_) (c) (v) :
    CE.conv (.trimFrom u1_ c v : CE) =
      ( do
    let _ ← dropNone (CE.isNoneOpt c) (CE.convOpt c)
    let _ ← visited v.isNone v.conv
    nothing) := rfl
theorem CE_conv_trim (v) (c) :
    CE.conv (.trim v c : CE) =
      ( do
    let _ ← visited v.isNone v.conv
    let _ ← dropNone (CE.isNoneOpt c) (CE.convOpt c)
    nothing) := rfl
theorem CE_conv_grouping (ns) :
    CE.conv (.grouping ns : CE) =
      ( do
    let _ ← identTexts ns.flatten
    nothing) := rfl
theorem CE_convOpt_none :
    CE.convOpt (none : Option CE) =
      ( .ok none) := rfl
theorem CE_convOpt_some (e) :
    CE.convOpt (some e : Option CE) =
      ( do
    let a ← e.conv
    .ok (some a)) := rfl
theorem CE_convs_nil :
    CE.convs ([] : List CE) =
      ( .ok []) := rfl
theorem CE_convs_cons (e) (es) :
    CE.convs (e :: es : List CE) =
      ( do
    let a ← e.conv
    let as ← CE.convs es
    .ok (a :: as)) := rfl
theorem CWhen_convs_nil :
    CWhen.convs ([] : List CWhen) =
      ( .ok []) := rfl
theorem CWhen_convs_cons (c) (v) (ws) :
    CWhen.convs (.mk c v :: ws : List CWhen) =
      ( do
    let a ← c.conv
    let b ← v.conv
    let bs ← CWhen.convs ws
    .ok ((a, b) :: bs)) := rfl
theorem CSort_convs_nil :
    CSort.convs ([] : List CSort) =
      ( .ok []) := rfl
theorem CSort_convs_cons (e) (o) (n) (ss) :
    CSort.convs (.mk e o n :: ss : List CSort) =
      ( do
    let a ← e.conv
    let os ← CSort.convs ss
    .ok (.mk a (isDesc o) (isNullsFirst n) :: os)) := rfl
theorem CBound_conv_unbounded (t) :
    CBound.conv (.unbounded t : CBound) =
      ( do
    let b ← boundOf t
    .ok (.unbounded b)) := rfl
theorem CBound_conv_current :
    CBound.conv (.current : CBound) =
      ( .ok .current) := rfl
theorem CBound_conv_bounded (e) (t) :
    CBound.conv (.bounded e t : CBound) =
      ( do
    let b ← boundOf t
    let a ← e.conv
    .ok (.bounded b a)) := rfl
theorem CFrame_conv_none :
    CFrame.conv (.none : CFrame) =
      ( .ok (.range, .unbounded .preceding, .current)) := rfl
theorem CFrame_conv_from_ (t) (b) :
    CFrame.conv (.from_ t b : CFrame) =
      ( do
    let f ← frameOf t
    let a ← b.conv
    .ok (f, a, .current)) := rfl
theorem CFrame_conv_between (t) (a) (b) :
    CFrame.conv (.between t a b : CFrame) =
      ( do
    let f ← frameOf t
    let x ← a.conv
    let y ← b.conv
    .ok (f, x, y)) := rfl
theorem CWin_conv_ref (t) :
    CWin.conv (.ref t : CWin) =
      ( do
    let n ← identText t
    .ok (.mk (some n) [] [] .range (.unbounded .preceding) .current)) := rfl
theorem CWin_conv_spec (p) (ps) (ob) (fr) :
    CWin.conv (.spec p ps ob fr : CWin) =
      ( do
    let f ← fr.conv
    let o ← CSort.convs ob
    let as ← CE.convs ps
    let n ← identOpt p
    .ok (.mk n o as f.1 f.2.1 f.2.2)) := rfl
theorem CWin_convOpt_none :
    CWin.convOpt (none : Option CWin) =
      ( .ok none) := rfl
theorem CWin_convOpt_some (w) :
    CWin.convOpt (some w : Option CWin) =
      ( do
    let a ← w.conv
    .ok (some a)) := rfl
theorem CSet_conv_paren (es) :
    CSet.conv (.paren es : CSet) =
      ( CE.convs es) := rfl
theorem CSet_conv_expr (e) :
    CSet.conv (.expr e : CSet) =
      ( do
    let a ← e.conv
    .ok [a]) := rfl
theorem CSet_convs_nil :
    CSet.convs ([] : List CSet) =
      ( .ok []) := rfl
theorem CSet_convs_cons (s) (ss) :
    CSet.convs (s :: ss : List CSet) =
      ( do
    let a ← s.conv
    let as ← CSet.convs ss
    .ok (a :: as)) := rfl
theorem CGrp_conv_single (s) :
    CGrp.conv (.single s : CGrp) =
      ( do
    let vs ← s.conv
    Grp.build (.set vs)) := rfl
theorem CGrp_conv_rollup (es) :
    CGrp.conv (.rollup es : CGrp) =
      ( do
    let vs ← CE.convs es
    Grp.build (.rollup vs)) := rfl
theorem CGrp_conv_cube (es) :
    CGrp.conv (.cube es : CGrp) =
      ( do
    let vs ← CE.convs es
    Grp.build (.cube vs)) := rfl
theorem CGrp_conv_sets (ss) :
    CGrp.conv (.sets ss : CGrp) =
      ( do
    let gs ← CSet.convs ss
    Grp.build (.sets gs)) := rfl
theorem CGrp_convs_nil :
    CGrp.convs ([] : List CGrp) =
      ( .ok []) := rfl
theorem CGrp_convs_cons (s) (ss) :
    CGrp.convs (s :: ss : List CGrp) =
      ( do
    let a ← s.conv
    let as ← CGrp.convs ss
    .ok (a :: as)) := rfl
theorem CItem_conv_expr (e) (u1_) (a) :
    CItem.conv (.expr e u1_ a : CItem) =
      ( do
    let v ← e.conv
    let n ← identOpt a
    aliasOf v n) := rfl
theorem CItem_conv_allOf (e) (cols) :
    CItem.conv (.allOf e cols : CItem) =
      ( do
    let b ← e.conv
    let s ← starOfBase b
    let cs ← identTexts cols
    starAliases s cs) := rfl
theorem CItem_conv_all :
    CItem.conv (.all : CItem) =
      ( Expr.build (.star none .unknown)) := rfl
theorem CItem_convs_nil :
    CItem.convs ([] : List CItem) =
      ( .ok []) := rfl
theorem CItem_convs_cons (s) (ss) :
    CItem.convs (s :: ss : List CItem) =
      ( do
    let a ← s.conv
    let as ← CItem.convs ss
    .ok (a :: as)) := rfl
theorem CWinDef_convs_nil :
    CWinDef.convs ([] : List CWinDef) =
      ( .ok []) := rfl
theorem CWinDef_convs_cons (n) (w) (ws) :
    CWinDef.convs (.mk n w :: ws : List CWinDef) =
      ( do
    let s ← identText n
    let a ← w.conv
    let as ← CWinDef.convs ws
    .ok ((s, a) :: as)) := rfl
theorem CQ_conv_mk (rc) (w) (b) :
    CQ.conv (.mk rc w b : CQ) =
      ( do
    let q ← b.conv
    if rc then .error .assertion
    else do
      let ns ← CNamed.convs w
      withQuery ns q) := rfl
theorem CNamed_convs_nil :
    CNamed.convs ([] : List CNamed) =
      ( .ok []) := rfl
theorem CNamed_convs_cons (n) (cols) (q) (ns) :
    CNamed.convs (.mk n cols q :: ns : List CNamed) =
      ( do
    let cs ← identTexts cols
    let q' ← q.conv
    let q'' ← noneIs .unmodelled q'
    let a ← identText n
    let as ← CNamed.convs ns
    .ok (.mk (.query q'') a cs :: as)) := rfl
theorem CQN_conv_mk (t) (ob) (off) (lim) :
    CQN.conv (.mk t ob off lim : CQN) =
      ( do
    let q ← t.conv
    let o ← CSort.convs ob
    let q ← orderQuery o q
    let q ← offsetQuery off q
    limitQuery lim q) := rfl
theorem CQT_conv_set (op) (quant) (l) (r) :
    CQT.conv (.set op quant l r : CQT) =
      ( do
    let a ← l.conv
    let b ← r.conv
    let d ← quantOf true quant
    let k ← setKindOf op
    let a' ← noneIs (missingOperand k) a
    let b' ← noneIs (missingOperand k) b
    let q ← Query.build (.mk (.set k a' b' d) none none [] [])
    .ok (some q)) := rfl
theorem CQT_conv_spec (quant) (items) (fr) (wh) (gq) (gs) (hv) (wins) :
    CQT.conv (.spec quant items fr wh gq gs hv wins : CQT) =
      ( do
    let is ← CItem.convs items
    let rs ← CR.convs fr
    let f ← fromOf rs
    let d ← quantOf false quant
    let w ← dropNone (CE.isNoneOpt wh) (CE.convOpt wh)
    let h ← dropNone (CE.isNoneOpt hv) (CE.convOpt hv)
    let g ← CGrp.convs gs
    let gd ← quantOf false gq
    let ws ← CWinDef.convs wins
    let q ← Query.build (.mk (.select is f w (groupByOf gd g) h d (dictOf ws)) none none [] [])
    .ok (some q)) := rfl
theorem CQT_conv_table (name) :
    CQT.conv (.table name : CQT) =
      ( do
    let ns ← identTexts name
    let t ← tableFromQualifiers ns
    let q ← Query.build (.mk (.table t) none none [] [])
    .ok (some q)) := rfl
theorem CQT_conv_values (es) :
    CQT.conv (.values es : CQT) =
      ( do
    let vs ← CE.convs es
    let q ← Query.build (.mk (.values vs) none none [] [])
    .ok (some q)) := rfl
theorem CQT_conv_sub (q) :
    CQT.conv (.sub q : CQT) =
      ( do
    let _ ← q.conv
    .ok none) := rfl
theorem CR_conv_cross (l) (r) :
    CR.conv (.cross l r : CR) =
      ( do
    let a ← l.conv
    let b ← r.conv
    let a' ← noneIs .unmodelled a
    let b' ← noneIs .unmodelled b
    let x ← Rel.build (.join a' b' .cross false none)
    .ok (some x)) := rfl
theorem CR_conv_natural (l) (t) (r) :
    CR.conv (.natural l t r : CR) =
      ( do
    let a ← l.conv
    let b ← r.conv
    let a' ← noneIs .unmodelled a
    let b' ← noneIs .unmodelled b
    let x ← Rel.build (.join a' b' t.conv true none)
    .ok (some x)) := rfl
theorem CR_conv_join (l) (t) (r) (c) :
    CR.conv (.join l t r c : CR) =
      ( do
    let a ← l.conv
    let b ← r.conv
    let c' ← c.conv
    let a' ← noneIs .unmodelled a
    let b' ← noneIs .unmodelled b
    let x ← Rel.build (.join a' b' t.conv false (some c'))
    .ok (some x)) := rfl
theorem CR_conv_sample (r) (t) (e) :
    CR.conv (.sample r t e : CR) =
      ( do
    let a ← r.conv
    let k ← sampleOf t
    let p ← e.conv
    let a' ← noneIs .unmodelled a
    let x ← Rel.build (.sample a' k p)
    .ok (some x)) := rfl
theorem CR_conv_alias (r) (u1_) (n) (cols) :
    CR.conv (.alias r u1_ n cols : CR) =
      ( do
    let a ← r.conv
    let s ← identText n
    let cs ← identTexts cols
    let a' ← noneIs .unmodelled a
    let x ← Rel.build (.aliased (.mk a' s cs))
    .ok (some x)) := rfl
theorem CR_conv_table (name) :
    CR.conv (.table name : CR) =
      ( do
    let ns ← identTexts name
    let t ← tableFromQualifiers ns
    .ok (some (.table t))) := rfl
theorem CR_conv_sub (q) :
    CR.conv (.sub q : CR) =
      ( do
    let q' ← q.conv
    .ok (q'.map .query)) := rfl
theorem CR_conv_unnest (es) (ord) :
    CR.conv (.unnest es ord : CR) =
      ( do
    let vs ← CE.convs es
    let x ← Rel.build (.unnest vs ord)
    .ok (some x)) := rfl
theorem CR_conv_lateral (q) :
    CR.conv (.lateral q : CR) =
      ( do
    let q' ← q.conv
    let q'' ← noneIs .unmodelled q'
    let x ← Rel.build (.lateral q'')
    .ok (some x)) := rfl
theorem CR_conv_paren (r) :
    CR.conv (.paren r : CR) =
      ( r.conv) := rfl
theorem CR_convs_nil :
    CR.convs ([] : List CR) =
      ( .ok []) := rfl
theorem CR_convs_cons (s) (ss) :
    CR.convs (s :: ss : List CR) =
      ( do
    let a ← s.conv
    let as ← CR.convs ss
    .ok (a :: as)) := rfl
theorem CCrit_conv_on (e) :
    CCrit.conv (.on e : CCrit) =
      ( do
    let a ← e.conv
    .ok (.on a)) := rfl
theorem CCrit_conv_using (cols) :
    CCrit.conv (.using cols : CCrit) =
      ( do
    let cs ← identTexts cols
    .ok (.using cs)) := rfl

end Treeno
