import Verif.Spec.Kept
/-!
# Equation lemmas of the functions in `Verif/Spec/Kept.lean`, one per match arm (all by `rfl`)
-/
set_option linter.unusedVariables false
namespace Treeno
open Spec

theorem CE_kept_or_ (l) (r) :
    CE.kept (.or_ l r : CE) =
      ( l.kept && r.kept) := rfl
theorem CE_kept_and_ (l) (r) :
    CE.kept (.and_ l r : CE) =
      ( l.kept && r.kept) := rfl
theorem CE_kept_not_ (v) :
    CE.kept (.not_ v : CE) =
      ( v.kept) := rfl
theorem CE_kept_cmp (u1_) (l) (r) :
    CE.kept (.cmp u1_ l r : CE) =
      ( l.kept && r.kept) := rfl
theorem CE_kept_between (u1_) (v) (l) (u) :
    CE.kept (.between u1_ v l u : CE) =
      ( v.kept && (l.kept && u.kept)) := rfl
theorem CE_kept_inList (u1_) (v) (es) :
    CE.kept (.inList u1_ v es : CE) =
      ( v.kept && CE.kepts es) := rfl
theorem CE_kept_inSub (u1_) (v) (q) :
    CE.kept (.inSub u1_ v q : CE) =
      ( v.kept && q.kept) := rfl
theorem CE_kept_like (u1_) (v) (p) (esc) :
    CE.kept (.like u1_ v p esc : CE) =
      ( v.kept && (p.kept && CE.keptOpt esc)) := rfl
theorem CE_kept_isNull (u1_) (v) :
    CE.kept (.isNull u1_ v : CE) =
      ( v.kept) := rfl
theorem CE_kept_distinct (u1_) (l) (r) :
    CE.kept (.distinct u1_ l r : CE) =
      ( l.kept && r.kept) := rfl
theorem CE_kept_quantified (u1_) (u2_) (u3_) (u4_) :
    CE.kept (.quantified u1_ u2_ u3_ u4_ : CE) =
      ( true) := rfl
theorem CE_kept_concat (l) (r) :
    CE.kept (.concat l r : CE) =
      ( l.kept && r.kept) := rfl
theorem CE_kept_arith (u1_) (l) (r) :
    CE.kept (.arith u1_ l r : CE) =
      ( l.kept && r.kept) := rfl
theorem CE_kept_sign (u1_) (v) :
    CE.kept (.sign u1_ v : CE) =
      ( v.kept) := rfl
theorem CE_kept_atZone (u1_) (u2_) :
    CE.kept (.atZone u1_ u2_ : CE) =
      ( false) := rfl
theorem CE_kept_null :
    CE.kept (.null : CE) =
      ( true) := rfl
theorem CE_kept_interval (u1_) (s) (u2_) (u3_) :
    CE.kept (.interval u1_ s u2_ u3_ : CE) =
      ( keptStr s && singleSign (stringOf s)) := rfl
theorem CE_kept_typeCtor (n) (s) :
    CE.kept (.typeCtor n s : CE) =
      ( keptName n && keptStr s) := rfl
theorem CE_kept_doublePrecision (u1_) :
    CE.kept (.doublePrecision u1_ : CE) =
      ( true) := rfl
theorem CE_kept_num (m) (t) :
    CE.kept (.num m t : CE) =
      ( keptNumber m t) := rfl
theorem CE_kept_bool (u1_) :
    CE.kept (.bool u1_ : CE) =
      ( true) := rfl
theorem CE_kept_str (s) :
    CE.kept (.str s : CE) =
      ( keptStr s) := rfl
theorem CE_kept_binary (u1_) :
    CE.kept (.binary u1_ : CE) =
      ( false) := rfl
theorem CE_kept_param :
    CE.kept (.param : CE) =
      ( true) := rfl
theorem CE_kept_row (es) :
    CE.kept (.row es : CE) =
      ( CE.kepts es) := rfl
theorem CE_kept_rowKw (es) :
    CE.kept (.rowKw es : CE) =
      ( CE.kepts es) := rfl
theorem CE_kept_listagg (q) (e) (sep) (ov) (ob) :
    CE.kept (.listagg q e sep ov ob : CE) =
      ( !quantMeaning false q && (e.kept && (keptOptStr sep && (keptOverflow ov && CSort.kepts ob)))) := rfl
theorem CE_kept_callStar (name) (label) (fl) (w) :
    CE.kept (.callStar name label fl w : CE) =
      ( keptCall name none 1 && (keptPrefix label && (CE.keptOpt fl && CWin.keptOpt w))) := rfl
theorem CE_kept_call (name) (q) (args) (ob) (fl) (u1_) (w) :
    CE.kept (.call name q args ob fl u1_ w : CE) =
      ( keptCall name q args.length && (CE.kepts args && (CSort.kepts ob && (CE.keptOpt fl && CWin.keptOpt w)))) := rfl
theorem CE_kept_lam (u1_) (ids) (b) :
    CE.kept (.lam u1_ ids b : CE) =
      ( ids.all keptName && b.kept) := rfl
theorem CE_kept_sub (q) :
    CE.kept (.sub q : CE) =
      ( q.kept) := rfl
theorem CE_kept_case (v) (ws) (e) :
    CE.kept (.case v ws e : CE) =
      ( CE.keptOpt v && (CWhen.kepts ws && CE.keptOpt e)) := rfl
theorem CE_kept_cast (u1_) (e) (u2_) (u3_) :
    CE.kept (.cast u1_ e u2_ u3_ : CE) =
      ( e.kept) := rfl
theorem CE_kept_array (es) :
    CE.kept (.array es : CE) =
      ( CE.kepts es) := rfl
theorem CE_kept_subscript (v) (i) :
    CE.kept (.subscript v i : CE) =
      ( v.kept && i.kept) := rfl
theorem CE_kept_col (t) :
    CE.kept (.col t : CE) =
      ( keptName t) := rfl
theorem CE_kept_deref (v) (n) :
    CE.kept (.deref v n : CE) =
      ( keptBase v && (v.kept && keptName n)) := rfl
theorem CE_kept_dateTime (u1_) (u2_) :
    CE.kept (.dateTime u1_ u2_ : CE) =
      ( true) := rfl
theorem CE_kept_session (u1_) :
    CE.kept (.session u1_ : CE) =
      ( true) := rfl
theorem CE_kept_normalize (v) (u1_) :
    CE.kept (.normalize v u1_ : CE) =
      ( v.kept) := rfl
theorem CE_kept_paren (e) :
    CE.kept (.paren e : CE) =
      ( e.kept) := rfl
theorem CE_kept_exists_ (u1_) :
    CE.kept (.exists_ u1_ : CE) =
      ( false) := rfl
theorem CE_kept_position (u1_) (u2_) :
    CE.kept (.position u1_ u2_ : CE) =
      ( false) := rfl
theorem CE_kept_substring (u1_) (u2_) (u3_) :
    CE.kept (.substring u1_ u2_ u3_ : CE) =
      ( false) := rfl
theorem CE_kept_extract (u1_) (u2_) :
    CE.kept (.extract u1_ u2_ : CE) =
      ( false) := rfl
theorem CE_kept_trimFrom (u1_) (u2_) (u3_) :
    CE.kept (.trimFrom u1_ u2_ u3_ : CE) =
      ( false) := rfl
theorem CE_kept_trim (u1_) (u2_) :
    CE.kept (.trim u1_ u2_ : CE) =
      ( false) := rfl
theorem CE_kept_grouping (u1_) :
    CE.kept (.grouping u1_ : CE) =
      ( false) := rfl
theorem CE_keptOpt_none :
    CE.keptOpt (none : Option CE) =
      ( true) := rfl
theorem CE_keptOpt_some (e) :
    CE.keptOpt (some e : Option CE) =
      ( e.kept) := rfl
theorem CE_kepts_nil :
    CE.kepts ([] : List CE) =
      ( true) := rfl
theorem CE_kepts_cons (e) (es) :
    CE.kepts (e :: es : List CE) =
      ( e.kept && CE.kepts es) := rfl
theorem CWhen_kepts_nil :
    CWhen.kepts ([] : List CWhen) =
      ( true) := rfl
theorem CWhen_kepts_cons (c) (v) (ws) :
    CWhen.kepts (.mk c v :: ws : List CWhen) =
      ( c.kept && (v.kept && CWhen.kepts ws)) := rfl
theorem CSort_kepts_nil :
    CSort.kepts ([] : List CSort) =
      ( true) := rfl
theorem CSort_kepts_cons (e) (u1_) (u2_) (ss) :
    CSort.kepts (.mk e u1_ u2_ :: ss : List CSort) =
      ( e.kept && CSort.kepts ss) := rfl
theorem CBound_kept_unbounded (u1_) :
    CBound.kept (.unbounded u1_ : CBound) =
      ( true) := rfl
theorem CBound_kept_current :
    CBound.kept (.current : CBound) =
      ( true) := rfl
theorem CBound_kept_bounded (e) (u1_) :
    CBound.kept (.bounded e u1_ : CBound) =
      ( e.kept) := rfl
theorem CFrame_kept_none :
    CFrame.kept (.none : CFrame) =
      ( true) := rfl
theorem CFrame_kept_from_ (u1_) (b) :
    CFrame.kept (.from_ u1_ b : CFrame) =
      ( b.kept) := rfl
theorem CFrame_kept_between (u1_) (a) (b) :
    CFrame.kept (.between u1_ a b : CFrame) =
      ( a.kept && b.kept) := rfl
theorem CWin_kept_ref (u1_) :
    CWin.kept (.ref u1_ : CWin) =
      ( false) := rfl
theorem CWin_kept_spec (p) (ps) (ob) (fr) :
    CWin.kept (.spec p ps ob fr : CWin) =
      ( keptPrefix p && ((p.isNone || !noFrame fr) && (CE.kepts ps && (CSort.kepts ob && fr.kept)))) := rfl
theorem CWin_keptOpt_none :
    CWin.keptOpt (none : Option CWin) =
      ( true) := rfl
theorem CWin_keptOpt_some (w) :
    CWin.keptOpt (some w : Option CWin) =
      ( w.kept) := rfl
theorem CSet_kept_paren (es) :
    CSet.kept (.paren es : CSet) =
      ( CE.kepts es) := rfl
theorem CSet_kept_expr (e) :
    CSet.kept (.expr e : CSet) =
      ( e.kept) := rfl
theorem CSet_kepts_nil :
    CSet.kepts ([] : List CSet) =
      ( true) := rfl
theorem CSet_kepts_cons (s) (ss) :
    CSet.kepts (s :: ss : List CSet) =
      ( s.kept && CSet.kepts ss) := rfl
theorem CGrp_kept_single (s) :
    CGrp.kept (.single s : CGrp) =
      ( s.kept) := rfl
theorem CGrp_kept_rollup (es) :
    CGrp.kept (.rollup es : CGrp) =
      ( CE.kepts es) := rfl
theorem CGrp_kept_cube (es) :
    CGrp.kept (.cube es : CGrp) =
      ( CE.kepts es) := rfl
theorem CGrp_kept_sets (ss) :
    CGrp.kept (.sets ss : CGrp) =
      ( CSet.kepts ss) := rfl
theorem CGrp_kepts_nil :
    CGrp.kepts ([] : List CGrp) =
      ( true) := rfl
theorem CGrp_kepts_cons (s) (ss) :
    CGrp.kepts (s :: ss : List CGrp) =
      ( s.kept && CGrp.kepts ss) := rfl
theorem CItem_kept_expr (e) (u1_) (a) :
    CItem.kept (.expr e u1_ a : CItem) =
      ( e.kept && keptOptName a) := rfl
theorem CItem_kept_allOf (e) (cols) :
    CItem.kept (.allOf e cols : CItem) =
      ( keptBase e && (e.kept && cols.all keptName)) := rfl
theorem CItem_kept_all :
    CItem.kept (.all : CItem) =
      ( true) := rfl
theorem CItem_kepts_nil :
    CItem.kepts ([] : List CItem) =
      ( true) := rfl
theorem CItem_kepts_cons (s) (ss) :
    CItem.kepts (s :: ss : List CItem) =
      ( s.kept && CItem.kepts ss) := rfl
theorem CWinDef_kepts_nil :
    CWinDef.kepts ([] : List CWinDef) =
      ( true) := rfl
theorem CWinDef_kepts_cons (n) (w) (ws) :
    CWinDef.kepts (.mk n w :: ws : List CWinDef) =
      ( keptName n && (w.kept && CWinDef.kepts ws)) := rfl
theorem CQ_kept_mk (u1_) (w) (b) :
    CQ.kept (.mk u1_ w b : CQ) =
      ( CNamed.kepts w && b.kept) := rfl
theorem CNamed_kepts_nil :
    CNamed.kepts ([] : List CNamed) =
      ( true) := rfl
theorem CNamed_kepts_cons (n) (cols) (q) (ns) :
    CNamed.kepts (.mk n cols q :: ns : List CNamed) =
      ( keptName n && (cols.all keptName && (q.kept && CNamed.kepts ns))) := rfl
theorem CQN_kept_mk (t) (ob) (u1_) (lim) :
    CQN.kept (.mk t ob u1_ lim : CQN) =
      ( t.kept && (CSort.kepts ob && keptLimit lim)) := rfl
theorem CQT_kept_set (u1_) (u2_) (l) (r) :
    CQT.kept (.set u1_ u2_ l r : CQT) =
      ( l.kept && r.kept) := rfl
theorem CQT_kept_spec (u1_) (items) (fr) (wh) (u2_) (gs) (hv) (wins) :
    CQT.kept (.spec u1_ items fr wh u2_ gs hv wins : CQT) =
      ( CItem.kepts items && (CR.kepts fr && (CE.keptOpt wh && (CGrp.kepts gs && (CE.keptOpt hv && (CWinDef.kepts wins && decide (windowNames wins).Nodup)))))) := rfl
theorem CQT_kept_table (name) :
    CQT.kept (.table name : CQT) =
      ( keptTable name) := rfl
theorem CQT_kept_values (es) :
    CQT.kept (.values es : CQT) =
      ( CE.kepts es) := rfl
theorem CQT_kept_sub (u1_) :
    CQT.kept (.sub u1_ : CQT) =
      ( false) := rfl
theorem CR_kept_cross (l) (r) :
    CR.kept (.cross l r : CR) =
      ( l.kept && r.kept) := rfl
theorem CR_kept_natural (l) (u1_) (r) :
    CR.kept (.natural l u1_ r : CR) =
      ( l.kept && r.kept) := rfl
theorem CR_kept_join (l) (u1_) (r) (c) :
    CR.kept (.join l u1_ r c : CR) =
      ( l.kept && (r.kept && c.kept)) := rfl
theorem CR_kept_sample (r) (u1_) (e) :
    CR.kept (.sample r u1_ e : CR) =
      ( r.kept && e.kept) := rfl
theorem CR_kept_alias (r) (u1_) (n) (cols) :
    CR.kept (.alias r u1_ n cols : CR) =
      ( r.kept && (keptName n && cols.all keptName)) := rfl
theorem CR_kept_table (name) :
    CR.kept (.table name : CR) =
      ( keptTable name) := rfl
theorem CR_kept_sub (q) :
    CR.kept (.sub q : CR) =
      ( q.kept) := rfl
theorem CR_kept_unnest (es) (u1_) :
    CR.kept (.unnest es u1_ : CR) =
      ( CE.kepts es) := rfl
theorem CR_kept_lateral (q) :
    CR.kept (.lateral q : CR) =
      ( q.kept) := rfl
theorem CR_kept_paren (r) :
    CR.kept (.paren r : CR) =
      ( r.kept) := rfl
theorem CR_kepts_nil :
    CR.kepts ([] : List CR) =
      ( true) := rfl
theorem CR_kepts_cons (s) (ss) :
    CR.kepts (s :: ss : List CR) =
      ( s.kept && CR.kepts ss) := rfl
theorem CCrit_kept_on (e) :
    CCrit.kept (.on e : CCrit) =
      ( e.kept) := rfl
theorem CCrit_kept_using (cols) :
    CCrit.kept (.using cols : CCrit) =
      ( cols.all keptName) := rfl

end Treeno
