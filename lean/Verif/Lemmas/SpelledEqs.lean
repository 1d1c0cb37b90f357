import Verif.Spec.Casing
/-!
# Equation lemmas of the functions in `Verif/Spec/Casing.lean`, one per match arm (all by `rfl`)
-/
set_option linter.unusedVariables false
namespace Treeno

theorem CTy_spelled_row (fields) :
    CTy.spelled (.row fields : CTy) =
      ( CField.spelleds fields) := rfl
theorem CTy_spelled_interval (from_) (to) :
    CTy.spelled (.interval from_ to : CTy) =
      ( [from_] ++ to.toList) := rfl
theorem CTy_spelled_datetime (u1_) (precision) (u2_) :
    CTy.spelled (.datetime u1_ precision u2_ : CTy) =
      ( CTParam.spelledOpt precision) := rfl
theorem CTy_spelled_doublePrecision :
    CTy.spelled (.doublePrecision : CTy) =
      ( []) := rfl
theorem CTy_spelled_legacyArray (t) :
    CTy.spelled (.legacyArray t : CTy) =
      ( t.spelled) := rfl
theorem CTy_spelled_legacyMap (k) (v) :
    CTy.spelled (.legacyMap k v : CTy) =
      ( k.spelled ++ v.spelled) := rfl
theorem CTy_spelled_arrayOf (t) (u1_) :
    CTy.spelled (.arrayOf t u1_ : CTy) =
      ( t.spelled) := rfl
theorem CTy_spelled_generic (u1_) (params) :
    CTy.spelled (.generic u1_ params : CTy) =
      ( CTParam.spelleds params) := rfl
theorem CField_spelled_mk (u1_) (t) :
    CField.spelled (.mk u1_ t : CField) =
      ( t.spelled) := rfl
theorem CTParam_spelled_int (t) :
    CTParam.spelled (.int t : CTParam) =
      ( [t]) := rfl
theorem CTParam_spelled_ty (t) :
    CTParam.spelled (.ty t : CTParam) =
      ( t.spelled) := rfl
theorem CField_spelleds_nil :
    CField.spelleds ([] : List CField) =
      ( []) := rfl
theorem CField_spelleds_cons (x) (xs) :
    CField.spelleds (x :: xs : List CField) =
      ( x.spelled ++ CField.spelleds xs) := rfl
theorem CTParam_spelledOpt_none :
    CTParam.spelledOpt (none : Option CTParam) =
      ( []) := rfl
theorem CTParam_spelledOpt_some (x) :
    CTParam.spelledOpt (some x : Option CTParam) =
      ( x.spelled) := rfl
theorem CTParam_spelleds_nil :
    CTParam.spelleds ([] : List CTParam) =
      ( []) := rfl
theorem CTParam_spelleds_cons (x) (xs) :
    CTParam.spelleds (x :: xs : List CTParam) =
      ( x.spelled ++ CTParam.spelleds xs) := rfl

theorem CE_spelled_or_ (l) (r) :
    CE.spelled (.or_ l r : CE) =
      ( l.spelled ++ r.spelled) := rfl
theorem CE_spelled_and_ (l) (r) :
    CE.spelled (.and_ l r : CE) =
      ( l.spelled ++ r.spelled) := rfl
theorem CE_spelled_not_ (v) :
    CE.spelled (.not_ v : CE) =
      ( v.spelled) := rfl
theorem CE_spelled_cmp (u1_) (l) (r) :
    CE.spelled (.cmp u1_ l r : CE) =
      ( l.spelled ++ r.spelled) := rfl
theorem CE_spelled_between (u1_) (v) (l) (u) :
    CE.spelled (.between u1_ v l u : CE) =
      ( v.spelled ++ l.spelled ++ u.spelled) := rfl
theorem CE_spelled_inList (u1_) (v) (es) :
    CE.spelled (.inList u1_ v es : CE) =
      ( v.spelled ++ CE.spelleds es) := rfl
theorem CE_spelled_inSub (u1_) (v) (q) :
    CE.spelled (.inSub u1_ v q : CE) =
      ( v.spelled ++ q.spelled) := rfl
theorem CE_spelled_like (u1_) (v) (p) (esc) :
    CE.spelled (.like u1_ v p esc : CE) =
      ( v.spelled ++ p.spelled ++ CE.spelledOpt esc) := rfl
theorem CE_spelled_isNull (u1_) (v) :
    CE.spelled (.isNull u1_ v : CE) =
      ( v.spelled) := rfl
theorem CE_spelled_distinct (u1_) (l) (r) :
    CE.spelled (.distinct u1_ l r : CE) =
      ( l.spelled ++ r.spelled) := rfl
theorem CE_spelled_quantified (u1_) (u2_) (l) (q) :
    CE.spelled (.quantified u1_ u2_ l q : CE) =
      ( l.spelled ++ q.spelled) := rfl
theorem CE_spelled_concat (l) (r) :
    CE.spelled (.concat l r : CE) =
      ( l.spelled ++ r.spelled) := rfl
theorem CE_spelled_arith (u1_) (l) (r) :
    CE.spelled (.arith u1_ l r : CE) =
      ( l.spelled ++ r.spelled) := rfl
theorem CE_spelled_sign (u1_) (v) :
    CE.spelled (.sign u1_ v : CE) =
      ( v.spelled) := rfl
theorem CE_spelled_atZone (v) (z) :
    CE.spelled (.atZone v z : CE) =
      ( v.spelled ++ z.spelled) := rfl
theorem CE_spelled_null :
    CE.spelled (.null : CE) =
      ( []) := rfl
theorem CE_spelled_interval (u1_) (u2_) (from_) (to) :
    CE.spelled (.interval u1_ u2_ from_ to : CE) =
      ( [from_] ++ to.toList) := rfl
theorem CE_spelled_typeCtor (name) (u1_) :
    CE.spelled (.typeCtor name u1_ : CE) =
      ( [name]) := rfl
theorem CE_spelled_doublePrecision (u1_) :
    CE.spelled (.doublePrecision u1_ : CE) =
      ( []) := rfl
theorem CE_spelled_num (u1_) (u2_) :
    CE.spelled (.num u1_ u2_ : CE) =
      ( []) := rfl
theorem CE_spelled_bool (u1_) :
    CE.spelled (.bool u1_ : CE) =
      ( []) := rfl
theorem CE_spelled_str (u1_) :
    CE.spelled (.str u1_ : CE) =
      ( []) := rfl
theorem CE_spelled_binary (u1_) :
    CE.spelled (.binary u1_ : CE) =
      ( []) := rfl
theorem CE_spelled_param :
    CE.spelled (.param : CE) =
      ( []) := rfl
theorem CE_spelled_row (es) :
    CE.spelled (.row es : CE) =
      ( CE.spelleds es) := rfl
theorem CE_spelled_rowKw (es) :
    CE.spelled (.rowKw es : CE) =
      ( CE.spelleds es) := rfl
theorem CE_spelled_listagg (u1_) (e) (u2_) (u3_) (ob) :
    CE.spelled (.listagg u1_ e u2_ u3_ ob : CE) =
      ( e.spelled ++ CSort.spelleds ob) := rfl
theorem CE_spelled_callStar (u1_) (label) (filter) (over) :
    CE.spelled (.callStar u1_ label filter over : CE) =
      ( label.toList ++ CE.spelledOpt filter ++ CWin.spelledOpt over) := rfl
theorem CE_spelled_call (u1_) (u2_) (args) (ob) (filter) (u3_) (over) :
    CE.spelled (.call u1_ u2_ args ob filter u3_ over : CE) =
      ( CE.spelleds args ++ CSort.spelleds ob ++ CE.spelledOpt filter ++ CWin.spelledOpt over) := rfl
theorem CE_spelled_lam (u1_) (ids) (body) :
    CE.spelled (.lam u1_ ids body : CE) =
      ( ids ++ body.spelled) := rfl
theorem CE_spelled_sub (q) :
    CE.spelled (.sub q : CE) =
      ( q.spelled) := rfl
theorem CE_spelled_case (v) (ws) (e) :
    CE.spelled (.case v ws e : CE) =
      ( CE.spelledOpt v ++ CWhen.spelleds ws ++ CE.spelledOpt e) := rfl
theorem CE_spelled_cast (u1_) (e) (ty) (u2_) :
    CE.spelled (.cast u1_ e ty u2_ : CE) =
      ( e.spelled ++ ty.spelled) := rfl
theorem CE_spelled_array (es) :
    CE.spelled (.array es : CE) =
      ( CE.spelleds es) := rfl
theorem CE_spelled_subscript (v) (i) :
    CE.spelled (.subscript v i : CE) =
      ( v.spelled ++ i.spelled) := rfl
theorem CE_spelled_col (t) :
    CE.spelled (.col t : CE) =
      ( [t]) := rfl
theorem CE_spelled_deref (v) (n) :
    CE.spelled (.deref v n : CE) =
      ( v.spelled ++ [n]) := rfl
theorem CE_spelled_dateTime (u1_) (prec) :
    CE.spelled (.dateTime u1_ prec : CE) =
      ( prec.toList) := rfl
theorem CE_spelled_session (u1_) :
    CE.spelled (.session u1_ : CE) =
      ( []) := rfl
theorem CE_spelled_normalize (v) (form) :
    CE.spelled (.normalize v form : CE) =
      ( v.spelled ++ form.toList) := rfl
theorem CE_spelled_paren (e) :
    CE.spelled (.paren e : CE) =
      ( e.spelled) := rfl
theorem CE_spelled_exists_ (q) :
    CE.spelled (.exists_ q : CE) =
      ( q.spelled) := rfl
theorem CE_spelled_position (l) (r) :
    CE.spelled (.position l r : CE) =
      ( l.spelled ++ r.spelled) := rfl
theorem CE_spelled_substring (v) (f) (n) :
    CE.spelled (.substring v f n : CE) =
      ( v.spelled ++ f.spelled ++ CE.spelledOpt n) := rfl
theorem CE_spelled_extract (u1_) (v) :
    CE.spelled (.extract u1_ v : CE) =
      ( v.spelled) := rfl
theorem CE_spelled_trimFrom (u1_) (char) (v) :
    CE.spelled (.trimFrom u1_ char v : CE) =
      ( CE.spelledOpt char ++ v.spelled) := rfl
theorem CE_spelled_trim (v) (char) :
    CE.spelled (.trim v char : CE) =
      ( v.spelled ++ CE.spelledOpt char) := rfl
theorem CE_spelled_grouping (u1_) :
    CE.spelled (.grouping u1_ : CE) =
      ( []) := rfl
theorem CWhen_spelled_mk (c) (v) :
    CWhen.spelled (.mk c v : CWhen) =
      ( c.spelled ++ v.spelled) := rfl
theorem CSort_spelled_mk (e) (u1_) (u2_) :
    CSort.spelled (.mk e u1_ u2_ : CSort) =
      ( e.spelled) := rfl
theorem CBound_spelled_unbounded (u1_) :
    CBound.spelled (.unbounded u1_ : CBound) =
      ( []) := rfl
theorem CBound_spelled_current :
    CBound.spelled (.current : CBound) =
      ( []) := rfl
theorem CBound_spelled_bounded (e) (u1_) :
    CBound.spelled (.bounded e u1_ : CBound) =
      ( e.spelled) := rfl
theorem CFrame_spelled_none :
    CFrame.spelled (.none : CFrame) =
      ( []) := rfl
theorem CFrame_spelled_from_ (u1_) (b) :
    CFrame.spelled (.from_ u1_ b : CFrame) =
      ( b.spelled) := rfl
theorem CFrame_spelled_between (u1_) (a) (b) :
    CFrame.spelled (.between u1_ a b : CFrame) =
      ( a.spelled ++ b.spelled) := rfl
theorem CWin_spelled_ref (t) :
    CWin.spelled (.ref t : CWin) =
      ( [t]) := rfl
theorem CWin_spelled_spec (parent) (parts) (ob) (frame) :
    CWin.spelled (.spec parent parts ob frame : CWin) =
      ( parent.toList ++ CE.spelleds parts ++ CSort.spelleds ob ++ frame.spelled) := rfl
theorem CSet_spelled_paren (es) :
    CSet.spelled (.paren es : CSet) =
      ( CE.spelleds es) := rfl
theorem CSet_spelled_expr (e) :
    CSet.spelled (.expr e : CSet) =
      ( e.spelled) := rfl
theorem CGrp_spelled_single (s) :
    CGrp.spelled (.single s : CGrp) =
      ( s.spelled) := rfl
theorem CGrp_spelled_rollup (es) :
    CGrp.spelled (.rollup es : CGrp) =
      ( CE.spelleds es) := rfl
theorem CGrp_spelled_cube (es) :
    CGrp.spelled (.cube es : CGrp) =
      ( CE.spelleds es) := rfl
theorem CGrp_spelled_sets (ss) :
    CGrp.spelled (.sets ss : CGrp) =
      ( CSet.spelleds ss) := rfl
theorem CItem_spelled_expr (e) (u1_) (alias) :
    CItem.spelled (.expr e u1_ alias : CItem) =
      ( e.spelled ++ alias.toList) := rfl
theorem CItem_spelled_allOf (e) (cols) :
    CItem.spelled (.allOf e cols : CItem) =
      ( e.spelled ++ cols) := rfl
theorem CItem_spelled_all :
    CItem.spelled (.all : CItem) =
      ( []) := rfl
theorem CWinDef_spelled_mk (name) (w) :
    CWinDef.spelled (.mk name w : CWinDef) =
      ( [name] ++ w.spelled) := rfl
theorem CQ_spelled_mk (u1_) (w) (body) :
    CQ.spelled (.mk u1_ w body : CQ) =
      ( CNamed.spelleds w ++ body.spelled) := rfl
theorem CNamed_spelled_mk (name) (cols) (q) :
    CNamed.spelled (.mk name cols q : CNamed) =
      ( [name] ++ cols ++ q.spelled) := rfl
theorem CQN_spelled_mk (t) (ob) (u1_) (limit) :
    CQN.spelled (.mk t ob u1_ limit : CQN) =
      ( t.spelled ++ CSort.spelleds ob ++ limit.spelled) := rfl
theorem CQT_spelled_set (u1_) (quant) (l) (r) :
    CQT.spelled (.set u1_ quant l r : CQT) =
      ( quant.toList ++ l.spelled ++ r.spelled) := rfl
theorem CQT_spelled_spec (quant) (items) (from_) (where_) (gquant) (groups) (having) (wins) :
    CQT.spelled (.spec quant items from_ where_ gquant groups having wins : CQT) =
      ( quant.toList ++ CItem.spelleds items ++ CR.spelleds from_ ++ CE.spelledOpt where_ ++ gquant.toList ++ CGrp.spelleds groups ++ CE.spelledOpt having ++ CWinDef.spelleds wins) := rfl
theorem CQT_spelled_table (name) :
    CQT.spelled (.table name : CQT) =
      ( name) := rfl
theorem CQT_spelled_values (es) :
    CQT.spelled (.values es : CQT) =
      ( CE.spelleds es) := rfl
theorem CQT_spelled_sub (q) :
    CQT.spelled (.sub q : CQT) =
      ( q.spelled) := rfl
theorem CR_spelled_cross (l) (r) :
    CR.spelled (.cross l r : CR) =
      ( l.spelled ++ r.spelled) := rfl
theorem CR_spelled_join (l) (u1_) (r) (c) :
    CR.spelled (.join l u1_ r c : CR) =
      ( l.spelled ++ r.spelled ++ c.spelled) := rfl
theorem CR_spelled_natural (l) (u1_) (r) :
    CR.spelled (.natural l u1_ r : CR) =
      ( l.spelled ++ r.spelled) := rfl
theorem CR_spelled_sample (r) (t) (e) :
    CR.spelled (.sample r t e : CR) =
      ( r.spelled ++ [t] ++ e.spelled) := rfl
theorem CR_spelled_alias (r) (u1_) (name) (cols) :
    CR.spelled (.alias r u1_ name cols : CR) =
      ( r.spelled ++ [name] ++ cols) := rfl
theorem CR_spelled_table (name) :
    CR.spelled (.table name : CR) =
      ( name) := rfl
theorem CR_spelled_sub (q) :
    CR.spelled (.sub q : CR) =
      ( q.spelled) := rfl
theorem CR_spelled_unnest (es) (u1_) :
    CR.spelled (.unnest es u1_ : CR) =
      ( CE.spelleds es) := rfl
theorem CR_spelled_lateral (q) :
    CR.spelled (.lateral q : CR) =
      ( q.spelled) := rfl
theorem CR_spelled_paren (r) :
    CR.spelled (.paren r : CR) =
      ( r.spelled) := rfl
theorem CCrit_spelled_on (e) :
    CCrit.spelled (.on e : CCrit) =
      ( e.spelled) := rfl
theorem CCrit_spelled_using (cols) :
    CCrit.spelled (.using cols : CCrit) =
      ( cols) := rfl
theorem CE_spelledOpt_none :
    CE.spelledOpt (none : Option CE) =
      ( []) := rfl
theorem CE_spelledOpt_some (x) :
    CE.spelledOpt (some x : Option CE) =
      ( x.spelled) := rfl
theorem CE_spelleds_nil :
    CE.spelleds ([] : List CE) =
      ( []) := rfl
theorem CE_spelleds_cons (x) (xs) :
    CE.spelleds (x :: xs : List CE) =
      ( x.spelled ++ CE.spelleds xs) := rfl
theorem CGrp_spelleds_nil :
    CGrp.spelleds ([] : List CGrp) =
      ( []) := rfl
theorem CGrp_spelleds_cons (x) (xs) :
    CGrp.spelleds (x :: xs : List CGrp) =
      ( x.spelled ++ CGrp.spelleds xs) := rfl
theorem CItem_spelleds_nil :
    CItem.spelleds ([] : List CItem) =
      ( []) := rfl
theorem CItem_spelleds_cons (x) (xs) :
    CItem.spelleds (x :: xs : List CItem) =
      ( x.spelled ++ CItem.spelleds xs) := rfl
theorem CNamed_spelleds_nil :
    CNamed.spelleds ([] : List CNamed) =
      ( []) := rfl
theorem CNamed_spelleds_cons (x) (xs) :
    CNamed.spelleds (x :: xs : List CNamed) =
      ( x.spelled ++ CNamed.spelleds xs) := rfl
theorem CR_spelleds_nil :
    CR.spelleds ([] : List CR) =
      ( []) := rfl
theorem CR_spelleds_cons (x) (xs) :
    CR.spelleds (x :: xs : List CR) =
      ( x.spelled ++ CR.spelleds xs) := rfl
theorem CSet_spelleds_nil :
    CSet.spelleds ([] : List CSet) =
      ( []) := rfl
theorem CSet_spelleds_cons (x) (xs) :
    CSet.spelleds (x :: xs : List CSet) =
      ( x.spelled ++ CSet.spelleds xs) := rfl
theorem CSort_spelleds_nil :
    CSort.spelleds ([] : List CSort) =
      ( []) := rfl
theorem CSort_spelleds_cons (x) (xs) :
    CSort.spelleds (x :: xs : List CSort) =
      ( x.spelled ++ CSort.spelleds xs) := rfl
theorem CWhen_spelleds_nil :
    CWhen.spelleds ([] : List CWhen) =
      ( []) := rfl
theorem CWhen_spelleds_cons (x) (xs) :
    CWhen.spelleds (x :: xs : List CWhen) =
      ( x.spelled ++ CWhen.spelleds xs) := rfl
theorem CWin_spelledOpt_none :
    CWin.spelledOpt (none : Option CWin) =
      ( []) := rfl
theorem CWin_spelledOpt_some (x) :
    CWin.spelledOpt (some x : Option CWin) =
      ( x.spelled) := rfl
theorem CWinDef_spelleds_nil :
    CWinDef.spelleds ([] : List CWinDef) =
      ( []) := rfl
theorem CWinDef_spelleds_cons (x) (xs) :
    CWinDef.spelleds (x :: xs : List CWinDef) =
      ( x.spelled ++ CWinDef.spelleds xs) := rfl

end Treeno
