import Verif.Spec.SqlMeaning
/-!
# Equation lemmas of the functions in `Verif/Spec/SqlMeaning.lean`, one per match arm (all by `rfl`)
-/
set_option linter.unusedVariables false
namespace Treeno
open Spec

theorem CE_mean_or_ (M) (l) (r) :
    CE.mean M (.or_ l r : CE) =
      ( Model.or (l.mean M) (r.mean M)) := rfl
theorem CE_mean_and_ (M) (l) (r) :
    CE.mean M (.and_ l r : CE) =
      ( Model.and (l.mean M) (r.mean M)) := rfl
theorem CE_mean_not_ (M) (v) :
    CE.mean M (.not_ v : CE) =
      ( Model.not (v.mean M)) := rfl
theorem CE_mean_cmp (M) (op) (l) (r) :
    CE.mean M (.cmp op l r : CE) =
      ( compared op (l.mean M) (r.mean M)) := rfl
theorem CE_mean_between (M) (neg) (v) (l) (u) :
    CE.mean M (.between neg v l u : CE) =
      ( if neg then notBetweenD (v.mean M) (l.mean M) (u.mean M) else Model.betweenD (v.mean M) (l.mean M) (u.mean M)) := rfl
theorem CE_mean_inList (M) (neg) (v) (es) :
    CE.mean M (.inList neg v es : CE) =
      ( if neg then notInListD (v.mean M) (CE.means M es) else Model.inListD (v.mean M) (CE.means M es)) := rfl
theorem CE_mean_inSub (M) (neg) (v) (q) :
    CE.mean M (.inSub neg v q : CE) =
      ( if neg then notInRowsD (v.mean M) (q.mean M) else Model.inRowsD (v.mean M) (q.mean M)) := rfl
theorem CE_mean_like (M) (neg) (v) (p) (esc) :
    CE.mean M (.like neg v p esc : CE) =
      ( if neg then notLikeD (v.mean M) (p.mean M) (CE.meanOpt M esc) else Model.likeD (v.mean M) (p.mean M) (CE.meanOpt M esc)) := rfl
theorem CE_mean_isNull (M) (neg) (v) :
    CE.mean M (.isNull neg v : CE) =
      ( if neg then isNotNullD (v.mean M) else Model.isNullD (v.mean M)) := rfl
theorem CE_mean_distinct (M) (neg) (l) (r) :
    CE.mean M (.distinct neg l r : CE) =
      ( if neg then notDistinctD (l.mean M) (r.mean M) else Model.binary .distinct (l.mean M) (r.mean M)) := rfl
theorem CE_mean_quantified (M) (op) (k) (l) (q) :
    CE.mean M (.quantified op k l q : CE) =
      ( M.op (.other [op.text, upper k.text]) [l.mean M, q.mean M]) := rfl
theorem CE_mean_concat (M) (l) (r) :
    CE.mean M (.concat l r : CE) =
      ( M.op (.call (c% "CONCAT") false) [Model.list [l.mean M, r.mean M], Model.list [], Model.opt none, Model.opt none]) := rfl
theorem CE_mean_arith (M) (op) (l) (r) :
    CE.mean M (.arith op l r : CE) =
      ( arithmetic op (l.mean M) (r.mean M)) := rfl
theorem CE_mean_sign (M) (op) (v) :
    CE.mean M (.sign op v : CE) =
      ( signed op (v.mean M)) := rfl
theorem CE_mean_atZone (M) (v) (z) :
    CE.mean M (.atZone v z : CE) =
      ( M.op (.other [c% "AT TIME ZONE"]) [v.mean M, z.mean M]) := rfl
theorem CE_mean_null (M) :
    CE.mean M (.null : CE) =
      ( Model.null) := rfl
theorem CE_mean_interval (M) (sg) (s) (f) (t) :
    CE.mean M (.interval sg s f t : CE) =
      ( intervalMeaning (sg.any fun t => t.text == c% "-") (stringOf s) f.text (t.map Tok.text)) := rfl
theorem CE_mean_typeCtor (M) (n) (s) :
    CE.mean M (.typeCtor n s : CE) =
      ( Model.const (.typed (nameOf n) (stringOf s))) := rfl
theorem CE_mean_doublePrecision (M) (s) :
    CE.mean M (.doublePrecision s : CE) =
      ( Model.const (.typed (c% "DOUBLE PRECISION") (stringOf s))) := rfl
theorem CE_mean_num (M) (m) (t) :
    CE.mean M (.num m t : CE) =
      ( numberOf m t) := rfl
theorem CE_mean_bool (M) (t) :
    CE.mean M (.bool t : CE) =
      ( Model.boolean (upper t.text == c% "TRUE")) := rfl
theorem CE_mean_str (M) (s) :
    CE.mean M (.str s : CE) =
      ( Model.const (.text (stringOf s))) := rfl
theorem CE_mean_binary (M) (t) :
    CE.mean M (.binary t : CE) =
      ( Model.const (.other [t.text])) := rfl
theorem CE_mean_param (M) :
    CE.mean M (.param : CE) =
      ( Model.const (.other [c% "?"])) := rfl
theorem CE_mean_row (M) (es) :
    CE.mean M (.row es : CE) =
      ( M.op .row (CE.means M es)) := rfl
theorem CE_mean_rowKw (M) (es) :
    CE.mean M (.rowKw es : CE) =
      ( M.op .row (CE.means M es)) := rfl
theorem CE_mean_listagg (M) (q) (e) (sep) (ov) (ob) :
    CE.mean M (.listagg q e sep ov ob : CE) =
      ( if quantMeaning false q then M.op (.other [c% "DISTINCT", c% "LISTAGG"]) (Model.const (.listagg ((sep.map stringOf).getD (c% " ")) (overflowMeaning ov)) :: e.mean M :: CSort.means M ob) else M.op (.listagg ((sep.map stringOf).getD (c% " ")) (overflowMeaning ov)) (e.mean M :: CSort.means M ob)) := rfl
theorem CE_mean_callStar (M) (name) (label) (fl) (w) :
    CE.mean M (.callStar name label fl w : CE) =
      ( M.op (.call (calledName name) false) [Model.list [Model.const (.star (label.map nameOf))], Model.list [], Model.opt (CE.meanOpt M fl), Model.opt (CWin.meanOpt M w)]) := rfl
theorem CE_mean_call (M) (name) (q) (args) (ob) (fl) (ign) (w) :
    CE.mean M (.call name q args ob fl ign w : CE) =
      ( if quantMeaning false q then M.op (.other [c% "DISTINCT", calledName name]) [Model.list (CE.means M args), Model.list (CSort.means M ob), Model.opt (CE.meanOpt M fl), Model.opt (CWin.meanOpt M w)] else M.op (.call (calledName name) (ign == some true)) [Model.list (CE.means M args), Model.list (CSort.means M ob), Model.opt (CE.meanOpt M fl), Model.opt (CWin.meanOpt M w)]) := rfl
theorem CE_mean_lam (M) (u1_) (ids) (b) :
    CE.mean M (.lam u1_ ids b : CE) =
      ( M.op (.lambda (ids.map nameOf)) [b.mean M]) := rfl
theorem CE_mean_sub (M) (q) :
    CE.mean M (.sub q : CE) =
      ( q.mean M) := rfl
theorem CE_mean_case (M) (v) (ws) (e) :
    CE.mean M (.case v ws e : CE) =
      ( M.op .case [Model.opt (CE.meanOpt M v), Model.list (CWhen.means M ws), Model.opt (CE.meanOpt M e)]) := rfl
theorem CE_mean_cast (M) (tr) (e) (ty) (u1_) :
    CE.mean M (.cast tr e ty u1_ : CE) =
      ( castMeaning tr ty (e.mean M)) := rfl
theorem CE_mean_array (M) (es) :
    CE.mean M (.array es : CE) =
      ( M.op .array (CE.means M es)) := rfl
theorem CE_mean_subscript (M) (v) (i) :
    CE.mean M (.subscript v i : CE) =
      ( M.op .subscript [v.mean M, i.mean M]) := rfl
theorem CE_mean_col (M) (t) :
    CE.mean M (.col t : CE) =
      ( Model.const (.column none (nameOf t))) := rfl
theorem CE_mean_deref (M) (v) (n) :
    CE.mean M (.deref v n : CE) =
      ( derefMeaning v (v.mean M) n) := rfl
theorem CE_mean_dateTime (M) (t) (p) :
    CE.mean M (.dateTime t p : CE) =
      ( currentMeaning t p) := rfl
theorem CE_mean_session (M) (t) :
    CE.mean M (.session t : CE) =
      ( Model.const (.session (upper t.text))) := rfl
theorem CE_mean_normalize (M) (v) (f) :
    CE.mean M (.normalize v f : CE) =
      ( M.op (.normalize (f.map Tok.text)) [v.mean M]) := rfl
theorem CE_mean_paren (M) (e) :
    CE.mean M (.paren e : CE) =
      ( e.mean M) := rfl
theorem CE_mean_exists_ (M) (q) :
    CE.mean M (.exists_ q : CE) =
      ( M.op (.other [c% "EXISTS"]) [q.mean M]) := rfl
theorem CE_mean_position (M) (l) (r) :
    CE.mean M (.position l r : CE) =
      ( M.op (.other [c% "POSITION"]) [l.mean M, r.mean M]) := rfl
theorem CE_mean_substring (M) (v) (f) (n) :
    CE.mean M (.substring v f n : CE) =
      ( M.op (.other [c% "SUBSTRING"]) [v.mean M, f.mean M, Model.opt (CE.meanOpt M n)]) := rfl
theorem CE_mean_extract (M) (t) (v) :
    CE.mean M (.extract t v : CE) =
      ( M.op (.other [c% "EXTRACT", nameOf t]) [v.mean M]) := rfl
theorem CE_mean_trimFrom (M) (s) (c) (v) :
    CE.mean M (.trimFrom s c v : CE) =
      ( M.op (.other [c% "TRIM", ((s.map fun t => upper t.text).getD (c% "BOTH"))]) [v.mean M, Model.opt (CE.meanOpt M c)]) := rfl
theorem CE_mean_trim (M) (v) (c) :
    CE.mean M (.trim v c : CE) =
      ( M.op (.other [c% "TRIM", c% "BOTH"]) [v.mean M, Model.opt (CE.meanOpt M c)]) := rfl
theorem CE_mean_grouping (M) (ns) :
    CE.mean M (.grouping ns : CE) =
      ( M.op (.other [c% "GROUPING"]) (ns.map fun n => Model.const (.other (n.map nameOf)))) := rfl
theorem CE_meanOpt_none (M) :
    CE.meanOpt M (none : Option CE) =
      ( none) := rfl
theorem CE_meanOpt_some (M) (e) :
    CE.meanOpt M (some e : Option CE) =
      ( some (e.mean M)) := rfl
theorem CE_means_nil (M) :
    CE.means M ([] : List CE) =
      ( []) := rfl
theorem CE_means_cons (M) (e) (es) :
    CE.means M (e :: es : List CE) =
      ( e.mean M :: CE.means M es) := rfl
theorem CWhen_means_nil (M) :
    CWhen.means M ([] : List CWhen) =
      ( []) := rfl
theorem CWhen_means_cons (M) (c) (v) (ws) :
    CWhen.means M (.mk c v :: ws : List CWhen) =
      ( M.op .branch [c.mean M, v.mean M] :: CWhen.means M ws) := rfl
theorem CSort_means_nil (M) :
    CSort.means M ([] : List CSort) =
      ( []) := rfl
theorem CSort_means_cons (M) (e) (o) (n) (ss) :
    CSort.means M (.mk e o n :: ss : List CSort) =
      ( M.op (.order (descMeaning o) (firstMeaning n)) [e.mean M] :: CSort.means M ss) := rfl
theorem CBound_mean_unbounded (M) (t) :
    CBound.mean M (.unbounded t : CBound) =
      ( Model.const (.unbounded (sideMeaning t))) := rfl
theorem CBound_mean_current (M) :
    CBound.mean M (.current : CBound) =
      ( Model.const .currentRow) := rfl
theorem CBound_mean_bounded (M) (e) (t) :
    CBound.mean M (.bounded e t : CBound) =
      ( M.op (.bounded (sideMeaning t)) [e.mean M]) := rfl
theorem CFrame_mean_none (M) :
    CFrame.mean M (.none : CFrame) =
      ( none) := rfl
theorem CFrame_mean_from_ (M) (t) (b) :
    CFrame.mean M (.from_ t b : CFrame) =
      ( some (frameMeaning t, [b.mean M, Model.const .currentRow])) := rfl
theorem CFrame_mean_between (M) (t) (a) (b) :
    CFrame.mean M (.between t a b : CFrame) =
      ( some (frameMeaning t, [a.mean M, b.mean M])) := rfl
theorem CWin_mean_ref (M) (t) :
    CWin.mean M (.ref t : CWin) =
      ( Model.const (.windowRef (nameOf t))) := rfl
theorem CWin_mean_spec (M) (p) (ps) (ob) (fr) :
    CWin.mean M (.spec p ps ob fr : CWin) =
      ( windowMeaning p (CE.means M ps) (CSort.means M ob) (fr.mean M)) := rfl
theorem CWin_meanOpt_none (M) :
    CWin.meanOpt M (none : Option CWin) =
      ( none) := rfl
theorem CWin_meanOpt_some (M) (w) :
    CWin.meanOpt M (some w : Option CWin) =
      ( some (w.mean M)) := rfl
theorem CSet_mean_paren (M) (es) :
    CSet.mean M (.paren es : CSet) =
      ( M.op .group (CE.means M es)) := rfl
theorem CSet_mean_expr (M) (e) :
    CSet.mean M (.expr e : CSet) =
      ( M.op .group [e.mean M]) := rfl
theorem CSet_means_nil (M) :
    CSet.means M ([] : List CSet) =
      ( []) := rfl
theorem CSet_means_cons (M) (s) (ss) :
    CSet.means M (s :: ss : List CSet) =
      ( s.mean M :: CSet.means M ss) := rfl
theorem CGrp_mean_single (M) (s) :
    CGrp.mean M (.single s : CGrp) =
      ( s.mean M) := rfl
theorem CGrp_mean_rollup (M) (es) :
    CGrp.mean M (.rollup es : CGrp) =
      ( M.op .rollup (CE.means M es)) := rfl
theorem CGrp_mean_cube (M) (es) :
    CGrp.mean M (.cube es : CGrp) =
      ( M.op .cube (CE.means M es)) := rfl
theorem CGrp_mean_sets (M) (ss) :
    CGrp.mean M (.sets ss : CGrp) =
      ( M.op .groups (CSet.means M ss)) := rfl
theorem CGrp_means_nil (M) :
    CGrp.means M ([] : List CGrp) =
      ( []) := rfl
theorem CGrp_means_cons (M) (s) (ss) :
    CGrp.means M (s :: ss : List CGrp) =
      ( s.mean M :: CGrp.means M ss) := rfl
theorem CItem_mean_expr (M) (e) (u1_) (a) :
    CItem.mean M (.expr e u1_ a : CItem) =
      ( aliasMeaning a (e.mean M)) := rfl
theorem CItem_mean_allOf (M) (e) (cols) :
    CItem.mean M (.allOf e cols : CItem) =
      ( allOfMeaning e (e.mean M) cols) := rfl
theorem CItem_mean_all (M) :
    CItem.mean M (.all : CItem) =
      ( Model.const (.star none)) := rfl
theorem CItem_means_nil (M) :
    CItem.means M ([] : List CItem) =
      ( []) := rfl
theorem CItem_means_cons (M) (s) (ss) :
    CItem.means M (s :: ss : List CItem) =
      ( s.mean M :: CItem.means M ss) := rfl
theorem CWinDef_means_nil (M) :
    CWinDef.means M ([] : List CWinDef) =
      ( []) := rfl
theorem CWinDef_means_cons (M) (n) (w) (ws) :
    CWinDef.means M (.mk n w :: ws : List CWinDef) =
      ( M.op (.named (nameOf n)) [w.mean M] :: CWinDef.means M ws) := rfl
theorem CQ_mean_mk (M) (rc) (w) (b) :
    CQ.mean M (.mk rc w b : CQ) =
      ( Model.withs rc (CNamed.means M w) (b.mean M)) := rfl
theorem CNamed_means_nil (M) :
    CNamed.means M ([] : List CNamed) =
      ( []) := rfl
theorem CNamed_means_cons (M) (n) (cols) (q) (ns) :
    CNamed.means M (.mk n cols q :: ns : List CNamed) =
      ( M.op (.common (nameOf n) (cols.map nameOf)) [q.mean M] :: CNamed.means M ns) := rfl
theorem CQN_mean_mk (M) (t) (ob) (off) (lim) :
    CQN.mean M (.mk t ob off lim : CQN) =
      ( limitMeaning lim (Model.offset (off.map fun p => (digitsVal p.1.text : Int)) (Model.ordered (CSort.means M ob) (t.mean M)))) := rfl
theorem CQT_mean_set (M) (op) (quant) (l) (r) :
    CQT.mean M (.set op quant l r : CQT) =
      ( M.op (.set (kindMeaning op) (quantMeaning true quant)) [l.mean M, r.mean M]) := rfl
theorem CQT_mean_spec (M) (quant) (items) (fr) (wh) (gq) (gs) (hv) (wins) :
    CQT.mean M (.spec quant items fr wh gq gs hv wins : CQT) =
      ( M.op (.select (quantMeaning false quant)) [Model.list (CItem.means M items), fromMeaning (CR.means M fr), Model.opt (CE.meanOpt M wh), groupByMeaning gq (CGrp.means M gs), Model.opt (CE.meanOpt M hv), Model.list (CWinDef.means M wins)]) := rfl
theorem CQT_mean_table (M) (name) :
    CQT.mean M (.table name : CQT) =
      ( tableName name) := rfl
theorem CQT_mean_values (M) (es) :
    CQT.mean M (.values es : CQT) =
      ( M.op .values (CE.means M es)) := rfl
theorem CQT_mean_sub (M) (q) :
    CQT.mean M (.sub q : CQT) =
      ( q.mean M) := rfl
theorem CR_mean_cross (M) (l) (r) :
    CR.mean M (.cross l r : CR) =
      ( M.op (.join .cross false) [l.mean M, r.mean M, Model.opt none]) := rfl
theorem CR_mean_natural (M) (l) (t) (r) :
    CR.mean M (.natural l t r : CR) =
      ( M.op (.join (joinMeaning t) true) [l.mean M, r.mean M, Model.opt none]) := rfl
theorem CR_mean_join (M) (l) (t) (r) (c) :
    CR.mean M (.join l t r c : CR) =
      ( M.op (.join (joinMeaning t) false) [l.mean M, r.mean M, c.mean M]) := rfl
theorem CR_mean_sample (M) (r) (t) (e) :
    CR.mean M (.sample r t e : CR) =
      ( M.op (.sample (sampleMeaning t)) [r.mean M, e.mean M]) := rfl
theorem CR_mean_alias (M) (r) (u1_) (n) (cols) :
    CR.mean M (.alias r u1_ n cols : CR) =
      ( M.op (.relAlias (nameOf n) (cols.map nameOf)) [r.mean M]) := rfl
theorem CR_mean_table (M) (name) :
    CR.mean M (.table name : CR) =
      ( tableName name) := rfl
theorem CR_mean_sub (M) (q) :
    CR.mean M (.sub q : CR) =
      ( q.mean M) := rfl
theorem CR_mean_unnest (M) (es) (ord) :
    CR.mean M (.unnest es ord : CR) =
      ( M.op (.unnest ord) (CE.means M es)) := rfl
theorem CR_mean_lateral (M) (q) :
    CR.mean M (.lateral q : CR) =
      ( M.op .lateral [q.mean M]) := rfl
theorem CR_mean_paren (M) (r) :
    CR.mean M (.paren r : CR) =
      ( r.mean M) := rfl
theorem CR_means_nil (M) :
    CR.means M ([] : List CR) =
      ( []) := rfl
theorem CR_means_cons (M) (s) (ss) :
    CR.means M (s :: ss : List CR) =
      ( s.mean M :: CR.means M ss) := rfl
theorem CCrit_mean_on (M) (e) :
    CCrit.mean M (.on e : CCrit) =
      ( M.op .on [e.mean M]) := rfl
theorem CCrit_mean_using (M) (cols) :
    CCrit.mean M (.using cols : CCrit) =
      ( Model.const (.using (cols.map nameOf))) := rfl

end Treeno
