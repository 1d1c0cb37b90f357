import Verif.Spec.Grammar
/-!
# Equation lemmas of the functions in `Verif/Spec/Grammar.lean`, one per match arm (all by `rfl`)
-/
set_option linter.unusedVariables false
namespace Treeno
open Spec

theorem CE_Wf_or_ (l) (r) :
    CE.Wf (.or_ l r : CE) =
      ( l.Wf ∧ r.Wf ∧ 1 ≤ r.lvl) := rfl
theorem CE_Wf_and_ (l) (r) :
    CE.Wf (.and_ l r : CE) =
      ( l.Wf ∧ 1 ≤ l.lvl ∧ r.Wf ∧ 2 ≤ r.lvl) := rfl
theorem CE_Wf_not_ (v) :
    CE.Wf (.not_ v : CE) =
      ( v.Wf ∧ 2 ≤ v.lvl) := rfl
theorem CE_Wf_cmp (op) (l) (r) :
    CE.Wf (.cmp op l r : CE) =
      ( Cmp op ∧ l.Wf ∧ 4 ≤ l.lvl ∧ r.Wf ∧ 4 ≤ r.lvl) := rfl
theorem CE_Wf_between (u1_) (v) (l) (u) :
    CE.Wf (.between u1_ v l u : CE) =
      ( v.Wf ∧ 4 ≤ v.lvl ∧ l.Wf ∧ 4 ≤ l.lvl ∧ u.Wf ∧ 4 ≤ u.lvl) := rfl
theorem CE_Wf_inList (u1_) (v) (es) :
    CE.Wf (.inList u1_ v es : CE) =
      ( v.Wf ∧ 4 ≤ v.lvl ∧ es ≠ [] ∧ CE.Wfs es) := rfl
theorem CE_Wf_inSub (u1_) (v) (q) :
    CE.Wf (.inSub u1_ v q : CE) =
      ( v.Wf ∧ 4 ≤ v.lvl ∧ q.Wf) := rfl
theorem CE_Wf_like (u1_) (v) (p) (esc) :
    CE.Wf (.like u1_ v p esc : CE) =
      ( v.Wf ∧ 4 ≤ v.lvl ∧ p.Wf ∧ 4 ≤ p.lvl ∧ CE.WfOpt 4 esc) := rfl
theorem CE_Wf_isNull (u1_) (v) :
    CE.Wf (.isNull u1_ v : CE) =
      ( v.Wf ∧ 4 ≤ v.lvl) := rfl
theorem CE_Wf_distinct (u1_) (l) (r) :
    CE.Wf (.distinct u1_ l r : CE) =
      ( l.Wf ∧ 4 ≤ l.lvl ∧ r.Wf ∧ 4 ≤ r.lvl) := rfl
theorem CE_Wf_quantified (op) (k) (l) (q) :
    CE.Wf (.quantified op k l q : CE) =
      ( Cmp op ∧ Kof [c% "ALL", c% "SOME", c% "ANY"] k ∧ l.Wf ∧ 4 ≤ l.lvl ∧ q.Wf) := rfl
theorem CE_Wf_concat (l) (r) :
    CE.Wf (.concat l r : CE) =
      ( l.Wf ∧ 4 ≤ l.lvl ∧ r.Wf ∧ 5 ≤ r.lvl) := rfl
theorem CE_Wf_arith (op) (l) (r) :
    CE.Wf (.arith op l r : CE) =
      ( Sof [c% "+", c% "-", c% "*", c% "/", c% "%"] op ∧ l.Wf ∧ r.Wf ∧ (if op.text = c% "+" ∨ op.text = c% "-" then 5 ≤ l.lvl ∧ 6 ≤ r.lvl else 6 ≤ l.lvl ∧ 7 ≤ r.lvl)) := rfl
theorem CE_Wf_sign (op) (v) :
    CE.Wf (.sign op v : CE) =
      ( Sof [c% "+", c% "-"] op ∧ v.Wf ∧ 7 ≤ v.lvl) := rfl
theorem CE_Wf_atZone (v) (z) :
    CE.Wf (.atZone v z : CE) =
      ( v.Wf ∧ 7 ≤ v.lvl ∧ v.isSign = false ∧ z.Wf ∧ z.isZone = true) := rfl
theorem CE_Wf_null :
    CE.Wf (.null : CE) =
      ( True) := rfl
theorem CE_Wf_interval (sg) (s) (f) (t) :
    CE.Wf (.interval sg s f t : CE) =
      ( Opt (Sof [c% "+", c% "-"]) sg ∧ s.Wf ∧ IvField f ∧ Opt IvField t) := rfl
theorem CE_Wf_typeCtor (n) (s) :
    CE.Wf (.typeCtor n s : CE) =
      ( Ident n ∧ s.Wf) := rfl
theorem CE_Wf_doublePrecision (s) :
    CE.Wf (.doublePrecision s : CE) =
      ( s.Wf) := rfl
theorem CE_Wf_num (u1_) (t) :
    CE.Wf (.num u1_ t : CE) =
      ( Num t) := rfl
theorem CE_Wf_bool (t) :
    CE.Wf (.bool t : CE) =
      ( Kof [c% "TRUE", c% "FALSE"] t) := rfl
theorem CE_Wf_str (s) :
    CE.Wf (.str s : CE) =
      ( s.Wf) := rfl
theorem CE_Wf_binary (t) :
    CE.Wf (.binary t : CE) =
      ( t.kind = .bin) := rfl
theorem CE_Wf_param :
    CE.Wf (.param : CE) =
      ( True) := rfl
theorem CE_Wf_row (es) :
    CE.Wf (.row es : CE) =
      ( 2 ≤ es.length ∧ CE.Wfs es) := rfl
theorem CE_Wf_rowKw (es) :
    CE.Wf (.rowKw es : CE) =
      ( es ≠ [] ∧ CE.Wfs es) := rfl
theorem CE_Wf_listagg (q) (e) (sep) (ov) (ob) :
    CE.Wf (.listagg q e sep ov ob : CE) =
      ( Opt Quant q ∧ e.Wf ∧ OptStr sep ∧ (∀ o, ov = some o → o.Wf) ∧ ob ≠ [] ∧ CSort.Wfs ob) := rfl
theorem CE_Wf_callStar (n) (l) (f) (w) :
    CE.Wf (.callStar n l f w : CE) =
      ( n ≠ [] ∧ Idents n ∧ Opt Ident l ∧ CE.WfOpt 0 f ∧ CWin.WfOpt w) := rfl
theorem CE_Wf_call (n) (q) (args) (ob) (f) (ign) (w) :
    CE.Wf (.call n q args ob f ign w : CE) =
      ( n ≠ [] ∧ Idents n ∧ Opt Quant q ∧ (q.isSome → args ≠ []) ∧ CE.Wfs args ∧ CSort.Wfs ob ∧ CE.WfOpt 0 f ∧ (ign.isSome → w.isSome) ∧ CWin.WfOpt w) := rfl
theorem CE_Wf_lam (p) (ids) (b) :
    CE.Wf (.lam p ids b : CE) =
      ( Idents ids ∧ (p = false → ids.length = 1) ∧ b.Wf) := rfl
theorem CE_Wf_sub (q) :
    CE.Wf (.sub q : CE) =
      ( q.Wf) := rfl
theorem CE_Wf_case (v) (ws) (e) :
    CE.Wf (.case v ws e : CE) =
      ( CE.WfOpt 0 v ∧ ws ≠ [] ∧ CWhen.Wfs ws ∧ CE.WfOpt 0 e) := rfl
theorem CE_Wf_cast (u1_) (e) (ty) (ts) :
    CE.Wf (.cast u1_ e ty ts : CE) =
      ( e.Wf ∧ GTy ty ts) := rfl
theorem CE_Wf_array (es) :
    CE.Wf (.array es : CE) =
      ( CE.Wfs es) := rfl
theorem CE_Wf_subscript (v) (i) :
    CE.Wf (.subscript v i : CE) =
      ( v.Wf ∧ 8 ≤ v.lvl ∧ i.Wf ∧ 4 ≤ i.lvl) := rfl
theorem CE_Wf_col (t) :
    CE.Wf (.col t : CE) =
      ( Ident t) := rfl
theorem CE_Wf_deref (v) (n) :
    CE.Wf (.deref v n : CE) =
      ( v.Wf ∧ 8 ≤ v.lvl ∧ Ident n) := rfl
theorem CE_Wf_dateTime (t) (p) :
    CE.Wf (.dateTime t p : CE) =
      ( (K (c% "CURRENT_DATE") t ∧ p = none) ∨ (Kof [c% "CURRENT_TIME", c% "CURRENT_TIMESTAMP", c% "LOCALTIME", c% "LOCALTIMESTAMP"] t ∧ Opt (fun t => t.kind = .int) p)) := rfl
theorem CE_Wf_session (t) :
    CE.Wf (.session t : CE) =
      ( Kof [c% "CURRENT_USER", c% "CURRENT_CATALOG", c% "CURRENT_SCHEMA", c% "CURRENT_PATH"] t) := rfl
theorem CE_Wf_normalize (v) (f) :
    CE.Wf (.normalize v f : CE) =
      ( v.Wf ∧ 4 ≤ v.lvl ∧ Opt (Kof [c% "NFD", c% "NFC", c% "NFKD", c% "NFKC"]) f) := rfl
theorem CE_Wf_paren (e) :
    CE.Wf (.paren e : CE) =
      ( e.Wf) := rfl
theorem CE_Wf_exists_ (q) :
    CE.Wf (.exists_ q : CE) =
      ( q.Wf) := rfl
theorem CE_Wf_position (l) (r) :
    CE.Wf (.position l r : CE) =
      ( l.Wf ∧ 4 ≤ l.lvl ∧ r.Wf ∧ 4 ≤ r.lvl) := rfl
theorem CE_Wf_substring (v) (f) (n) :
    CE.Wf (.substring v f n : CE) =
      ( v.Wf ∧ 4 ≤ v.lvl ∧ f.Wf ∧ 4 ≤ f.lvl ∧ CE.WfOpt 4 n) := rfl
theorem CE_Wf_extract (t) (v) :
    CE.Wf (.extract t v : CE) =
      ( Ident t ∧ v.Wf ∧ 4 ≤ v.lvl) := rfl
theorem CE_Wf_trimFrom (s) (c) (v) :
    CE.Wf (.trimFrom s c v : CE) =
      ( Opt (Kof [c% "LEADING", c% "TRAILING", c% "BOTH"]) s ∧ CE.WfOpt 4 c ∧ v.Wf ∧ 4 ≤ v.lvl) := rfl
theorem CE_Wf_trim (v) (c) :
    CE.Wf (.trim v c : CE) =
      ( v.Wf ∧ 4 ≤ v.lvl ∧ CE.WfOpt 4 c) := rfl
theorem CE_Wf_grouping (ns) :
    CE.Wf (.grouping ns : CE) =
      ( ∀ n ∈ ns, n ≠ [] ∧ Idents n) := rfl
theorem CE_Wfs_nil :
    CE.Wfs ([] : List CE) =
      ( True) := rfl
theorem CE_Wfs_cons (e) (es) :
    CE.Wfs (e :: es : List CE) =
      ( e.Wf ∧ CE.Wfs es) := rfl
theorem CE_WfOpt_none (p) :
    CE.WfOpt p (none : Option CE) =
      ( True) := rfl
theorem CE_WfOpt_some (p) (e) :
    CE.WfOpt p (some e : Option CE) =
      ( e.Wf ∧ p ≤ e.lvl) := rfl
theorem CWhen_Wfs_nil :
    CWhen.Wfs ([] : List CWhen) =
      ( True) := rfl
theorem CWhen_Wfs_cons (c) (v) (ws) :
    CWhen.Wfs (.mk c v :: ws : List CWhen) =
      ( c.Wf ∧ v.Wf ∧ CWhen.Wfs ws) := rfl
theorem CSort_Wfs_nil :
    CSort.Wfs ([] : List CSort) =
      ( True) := rfl
theorem CSort_Wfs_cons (e) (o) (n) (ss) :
    CSort.Wfs (.mk e o n :: ss : List CSort) =
      ( e.Wf ∧ Opt (Kof [c% "ASC", c% "DESC"]) o ∧ Opt (Kof [c% "FIRST", c% "LAST"]) n ∧ CSort.Wfs ss) := rfl
theorem CBound_Wf_unbounded (t) :
    CBound.Wf (.unbounded t : CBound) =
      ( Kof [c% "PRECEDING", c% "FOLLOWING"] t) := rfl
theorem CBound_Wf_current :
    CBound.Wf (.current : CBound) =
      ( True) := rfl
theorem CBound_Wf_bounded (e) (t) :
    CBound.Wf (.bounded e t : CBound) =
      ( e.Wf ∧ Kof [c% "PRECEDING", c% "FOLLOWING"] t) := rfl
theorem CFrame_Wf_none :
    CFrame.Wf (.none : CFrame) =
      ( True) := rfl
theorem CFrame_Wf_from_ (t) (b) :
    CFrame.Wf (.from_ t b : CFrame) =
      ( Kof [c% "RANGE", c% "ROWS", c% "GROUPS"] t ∧ b.Wf) := rfl
theorem CFrame_Wf_between (t) (a) (b) :
    CFrame.Wf (.between t a b : CFrame) =
      ( Kof [c% "RANGE", c% "ROWS", c% "GROUPS"] t ∧ a.Wf ∧ b.Wf) := rfl
theorem CWin_Wf_ref (t) :
    CWin.Wf (.ref t : CWin) =
      ( Ident t) := rfl
theorem CWin_Wf_spec (p) (ps) (ob) (f) :
    CWin.Wf (.spec p ps ob f : CWin) =
      ( Opt Ident p ∧ CE.Wfs ps ∧ CSort.Wfs ob ∧ f.Wf) := rfl
theorem CWin_WfOpt_none :
    CWin.WfOpt (none : Option CWin) =
      ( True) := rfl
theorem CWin_WfOpt_some (w) :
    CWin.WfOpt (some w : Option CWin) =
      ( w.Wf) := rfl
theorem CSet_Wf_paren (es) :
    CSet.Wf (.paren es : CSet) =
      ( CE.Wfs es) := rfl
theorem CSet_Wf_expr (e) :
    CSet.Wf (.expr e : CSet) =
      ( e.Wf) := rfl
theorem CSet_Wfs_nil :
    CSet.Wfs ([] : List CSet) =
      ( True) := rfl
theorem CSet_Wfs_cons (s) (ss) :
    CSet.Wfs (s :: ss : List CSet) =
      ( s.Wf ∧ CSet.Wfs ss) := rfl
theorem CGrp_Wf_single (s) :
    CGrp.Wf (.single s : CGrp) =
      ( s.Wf) := rfl
theorem CGrp_Wf_rollup (es) :
    CGrp.Wf (.rollup es : CGrp) =
      ( CE.Wfs es) := rfl
theorem CGrp_Wf_cube (es) :
    CGrp.Wf (.cube es : CGrp) =
      ( CE.Wfs es) := rfl
theorem CGrp_Wf_sets (ss) :
    CGrp.Wf (.sets ss : CGrp) =
      ( ss ≠ [] ∧ CSet.Wfs ss) := rfl
theorem CGrp_Wfs_nil :
    CGrp.Wfs ([] : List CGrp) =
      ( True) := rfl
theorem CGrp_Wfs_cons (s) (ss) :
    CGrp.Wfs (s :: ss : List CGrp) =
      ( s.Wf ∧ CGrp.Wfs ss) := rfl
theorem CItem_Wf_expr (e) (b) (a) :
    CItem.Wf (.expr e b a : CItem) =
      ( e.Wf ∧ Opt Ident a ∧ (b = true → a.isSome)) := rfl
theorem CItem_Wf_allOf (e) (cols) :
    CItem.Wf (.allOf e cols : CItem) =
      ( e.Wf ∧ 8 ≤ e.lvl ∧ Idents cols) := rfl
theorem CItem_Wf_all :
    CItem.Wf (.all : CItem) =
      ( True) := rfl
theorem CItem_Wfs_nil :
    CItem.Wfs ([] : List CItem) =
      ( True) := rfl
theorem CItem_Wfs_cons (s) (ss) :
    CItem.Wfs (s :: ss : List CItem) =
      ( s.Wf ∧ CItem.Wfs ss) := rfl
theorem CWinDef_Wfs_nil :
    CWinDef.Wfs ([] : List CWinDef) =
      ( True) := rfl
theorem CWinDef_Wfs_cons (n) (w) (ws) :
    CWinDef.Wfs (.mk n w :: ws : List CWinDef) =
      ( Ident n ∧ w.isSpec ∧ w.Wf ∧ CWinDef.Wfs ws) := rfl
theorem CQ_Wf_mk (rc) (w) (b) :
    CQ.Wf (.mk rc w b : CQ) =
      ( (rc = true → w ≠ []) ∧ CNamed.Wfs w ∧ b.Wf) := rfl
theorem CNamed_Wfs_nil :
    CNamed.Wfs ([] : List CNamed) =
      ( True) := rfl
theorem CNamed_Wfs_cons (n) (cols) (q) (ns) :
    CNamed.Wfs (.mk n cols q :: ns : List CNamed) =
      ( Ident n ∧ Idents cols ∧ q.Wf ∧ CNamed.Wfs ns) := rfl
theorem CQN_Wf_mk (t) (ob) (off) (lim) :
    CQN.Wf (.mk t ob off lim : CQN) =
      ( t.Wf ∧ CSort.Wfs ob ∧ OptOffset off ∧ lim.Wf) := rfl
theorem CQT_Wf_set (op) (q) (l) (r) :
    CQT.Wf (.set op q l r : CQT) =
      ( Kof [c% "UNION", c% "EXCEPT", c% "INTERSECT"] op ∧ Opt Quant q ∧ l.Wf ∧ r.Wf ∧ (if upper op.text = c% "INTERSECT" then 1 ≤ l.lvl ∧ 2 ≤ r.lvl else 1 ≤ r.lvl)) := rfl
theorem CQT_Wf_spec (q) (items) (fr) (wh) (gq) (gs) (hv) (ws) :
    CQT.Wf (.spec q items fr wh gq gs hv ws : CQT) =
      ( Opt Quant q ∧ items ≠ [] ∧ CItem.Wfs items ∧ CR.Wfs fr ∧ CE.WfOpt 0 wh ∧ Opt Quant gq ∧ (gq.isSome → gs ≠ []) ∧ CGrp.Wfs gs ∧ CE.WfOpt 0 hv ∧ CWinDef.Wfs ws) := rfl
theorem CQT_Wf_table (n) :
    CQT.Wf (.table n : CQT) =
      ( n ≠ [] ∧ Idents n) := rfl
theorem CQT_Wf_values (es) :
    CQT.Wf (.values es : CQT) =
      ( es ≠ [] ∧ CE.Wfs es) := rfl
theorem CQT_Wf_sub (q) :
    CQT.Wf (.sub q : CQT) =
      ( q.Wf) := rfl
theorem CR_Wf_cross (l) (r) :
    CR.Wf (.cross l r : CR) =
      ( l.Wf ∧ r.Wf ∧ 1 ≤ r.lvl) := rfl
theorem CR_Wf_join (l) (u1_) (r) (c) :
    CR.Wf (.join l u1_ r c : CR) =
      ( l.Wf ∧ r.Wf ∧ c.Wf) := rfl
theorem CR_Wf_natural (l) (u1_) (r) :
    CR.Wf (.natural l u1_ r : CR) =
      ( l.Wf ∧ r.Wf ∧ 1 ≤ r.lvl) := rfl
theorem CR_Wf_sample (r) (t) (e) :
    CR.Wf (.sample r t e : CR) =
      ( r.Wf ∧ 2 ≤ r.lvl ∧ Kof [c% "BERNOULLI", c% "SYSTEM"] t ∧ e.Wf) := rfl
theorem CR_Wf_alias (r) (u1_) (n) (cols) :
    CR.Wf (.alias r u1_ n cols : CR) =
      ( r.Wf ∧ 3 ≤ r.lvl ∧ Ident n ∧ Idents cols) := rfl
theorem CR_Wf_table (n) :
    CR.Wf (.table n : CR) =
      ( n ≠ [] ∧ Idents n) := rfl
theorem CR_Wf_sub (q) :
    CR.Wf (.sub q : CR) =
      ( q.Wf) := rfl
theorem CR_Wf_unnest (es) (u1_) :
    CR.Wf (.unnest es u1_ : CR) =
      ( es ≠ [] ∧ CE.Wfs es) := rfl
theorem CR_Wf_lateral (q) :
    CR.Wf (.lateral q : CR) =
      ( q.Wf) := rfl
theorem CR_Wf_paren (r) :
    CR.Wf (.paren r : CR) =
      ( r.Wf) := rfl
theorem CR_Wfs_nil :
    CR.Wfs ([] : List CR) =
      ( True) := rfl
theorem CR_Wfs_cons (s) (ss) :
    CR.Wfs (s :: ss : List CR) =
      ( s.Wf ∧ CR.Wfs ss) := rfl
theorem CCrit_Wf_on (e) :
    CCrit.Wf (.on e : CCrit) =
      ( e.Wf) := rfl
theorem CCrit_Wf_using (cols) :
    CCrit.Wf (.using cols : CCrit) =
      ( cols ≠ [] ∧ Idents cols) := rfl

end Treeno
