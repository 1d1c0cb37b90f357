import Verif.Spec.PlainTree
/-!
# Equation lemmas of the functions in `Verif/Spec/PlainTree.lean`, one per match arm (all by `rfl`)
-/
set_option linter.unusedVariables false
namespace Treeno
open Spec

theorem CE_Plain_or_ (l) (r) :
    CE.Plain (.or_ l r : CE) =
      ( l.Plain ∧ l.isLam = false ∧ r.Plain ∧ 1 ≤ r.rank) := rfl
theorem CE_Plain_and_ (l) (r) :
    CE.Plain (.and_ l r : CE) =
      ( l.Plain ∧ 1 ≤ l.rank ∧ r.Plain ∧ 2 ≤ r.rank) := rfl
theorem CE_Plain_not_ (v) :
    CE.Plain (.not_ v : CE) =
      ( v.Plain ∧ 2 ≤ v.rank) := rfl
theorem CE_Plain_cmp (op) (l) (r) :
    CE.Plain (.cmp op l r : CE) =
      ( SymIn [c% "=", c% "<>", c% "!=", c% "<", c% "<=", c% ">", c% ">="] op ∧ l.Plain ∧ 4 ≤ l.rank ∧ r.Plain ∧ 4 ≤ r.rank) := rfl
theorem CE_Plain_between (u1_) (v) (l) (u) :
    CE.Plain (.between u1_ v l u : CE) =
      ( v.Plain ∧ 4 ≤ v.rank ∧ l.Plain ∧ 4 ≤ l.rank ∧ u.Plain ∧ 4 ≤ u.rank) := rfl
theorem CE_Plain_inList (u1_) (v) (es) :
    CE.Plain (.inList u1_ v es : CE) =
      ( v.Plain ∧ 4 ≤ v.rank ∧ es ≠ [] ∧ CE.Plains es) := rfl
theorem CE_Plain_inSub (u1_) (v) (q) :
    CE.Plain (.inSub u1_ v q : CE) =
      ( v.Plain ∧ 4 ≤ v.rank ∧ q.Plain ∧ q.isBare = false) := rfl
theorem CE_Plain_like (u1_) (v) (p) (esc) :
    CE.Plain (.like u1_ v p esc : CE) =
      ( v.Plain ∧ 4 ≤ v.rank ∧ p.Plain ∧ 4 ≤ p.rank ∧ CE.PlainOpt 4 esc) := rfl
theorem CE_Plain_isNull (u1_) (v) :
    CE.Plain (.isNull u1_ v : CE) =
      ( v.Plain ∧ 4 ≤ v.rank) := rfl
theorem CE_Plain_distinct (u1_) (l) (r) :
    CE.Plain (.distinct u1_ l r : CE) =
      ( l.Plain ∧ 4 ≤ l.rank ∧ r.Plain ∧ 4 ≤ r.rank) := rfl
theorem CE_Plain_quantified (op) (k) (l) (q) :
    CE.Plain (.quantified op k l q : CE) =
      ( SymIn [c% "=", c% "<>", c% "!=", c% "<", c% "<=", c% ">", c% ">="] op ∧ KwIn [c% "ALL", c% "SOME", c% "ANY"] k ∧ l.Plain ∧ 4 ≤ l.rank ∧ q.Plain ∧ q.isBare = false) := rfl
theorem CE_Plain_concat (l) (r) :
    CE.Plain (.concat l r : CE) =
      ( l.Plain ∧ 4 ≤ l.rank ∧ r.Plain ∧ 5 ≤ r.rank) := rfl
theorem CE_Plain_arith (op) (l) (r) :
    CE.Plain (.arith op l r : CE) =
      ( l.Plain ∧ r.Plain ∧ ((SymIn [c% "+", c% "-"] op ∧ 5 ≤ l.rank ∧ 6 ≤ r.rank) ∨ (SymIn [c% "*", c% "/", c% "%"] op ∧ 6 ≤ l.rank ∧ 7 ≤ r.rank))) := rfl
theorem CE_Plain_atZone (v) (z) :
    CE.Plain (.atZone v z : CE) =
      ( v.Plain ∧ 7 ≤ v.rank ∧ v.isSign = false ∧ z.Plain ∧ z.isZone = true) := rfl
theorem CE_Plain_sign (op) (v) :
    CE.Plain (.sign op v : CE) =
      ( v.Plain ∧ 7 ≤ v.rank ∧ (op = symT (c% "+") ∨ (op = symT (c% "-") ∧ ∀ t ts, v.yield = t :: ts → ¬ Num t))) := rfl
theorem CE_Plain_null :
    CE.Plain (.null : CE) =
      ( True) := rfl
theorem CE_Plain_interval (sg) (s) (f) (t) :
    CE.Plain (.interval sg s f t : CE) =
      ( Opt (SymIn [c% "+", c% "-"]) sg ∧ PlainStr s ∧ PlainField f ∧ Opt PlainField t) := rfl
theorem CE_Plain_typeCtor (n) (s) :
    CE.Plain (.typeCtor n s : CE) =
      ( Word n ∧ PlainStr s) := rfl
theorem CE_Plain_doublePrecision (s) :
    CE.Plain (.doublePrecision s : CE) =
      ( PlainStr s) := rfl
theorem CE_Plain_num (u1_) (t) :
    CE.Plain (.num u1_ t : CE) =
      ( Num t) := rfl
theorem CE_Plain_bool (t) :
    CE.Plain (.bool t : CE) =
      ( KwIn [c% "TRUE", c% "FALSE"] t) := rfl
theorem CE_Plain_str (s) :
    CE.Plain (.str s : CE) =
      ( PlainStr s) := rfl
theorem CE_Plain_binary (t) :
    CE.Plain (.binary t : CE) =
      ( t.kind = .bin) := rfl
theorem CE_Plain_param :
    CE.Plain (.param : CE) =
      ( True) := rfl
theorem CE_Plain_row (es) :
    CE.Plain (.row es : CE) =
      ( 2 ≤ es.length ∧ CE.Plains es) := rfl
theorem CE_Plain_rowKw (es) :
    CE.Plain (.rowKw es : CE) =
      ( es ≠ [] ∧ CE.Plains es) := rfl
theorem CE_Plain_listagg (q) (e) (sep) (ov) (ob) :
    CE.Plain (.listagg q e sep ov ob : CE) =
      ( Opt (KwIn [c% "DISTINCT", c% "ALL"]) q ∧ e.Plain ∧ (∀ s, sep = some s → PlainStr s) ∧ (∀ o, ov = some o → PlainOverflow o) ∧ ob ≠ [] ∧ CSort.Plains ob) := rfl
theorem CE_Plain_callStar (n) (l) (f) (w) :
    CE.Plain (.callStar n l f w : CE) =
      ( n ≠ [] ∧ Words n ∧ Opt Word l ∧ CE.PlainOpt 0 f ∧ CWin.PlainOpt w) := rfl
theorem CE_Plain_call (n) (q) (args) (ob) (f) (ign) (w) :
    CE.Plain (.call n q args ob f ign w : CE) =
      ( n ≠ [] ∧ Words n ∧ Opt (KwIn [c% "DISTINCT", c% "ALL"]) q ∧ (q.isSome → args ≠ []) ∧ CE.Plains args ∧ CSort.Plains ob ∧ CE.PlainOpt 0 f ∧ (ign.isSome → w.isSome) ∧ CWin.PlainOpt w) := rfl
theorem CE_Plain_lam (p) (ids) (b) :
    CE.Plain (.lam p ids b : CE) =
      ( Words ids ∧ (p = false → ids.length = 1) ∧ b.Plain) := rfl
theorem CE_Plain_sub (q) :
    CE.Plain (.sub q : CE) =
      ( q.Plain) := rfl
theorem CE_Plain_case (v) (ws) (e) :
    CE.Plain (.case v ws e : CE) =
      ( CE.PlainOpt 0 v ∧ ws ≠ [] ∧ CWhen.Plains ws ∧ CE.PlainOpt 0 e) := rfl
theorem CE_Plain_cast (u1_) (e) (ty) (ts) :
    CE.Plain (.cast u1_ e ty ts : CE) =
      ( e.Plain ∧ PlainTy ty ts) := rfl
theorem CE_Plain_array (es) :
    CE.Plain (.array es : CE) =
      ( CE.Plains es) := rfl
theorem CE_Plain_subscript (v) (i) :
    CE.Plain (.subscript v i : CE) =
      ( v.Plain ∧ 8 ≤ v.rank ∧ i.Plain ∧ 4 ≤ i.rank) := rfl
theorem CE_Plain_col (t) :
    CE.Plain (.col t : CE) =
      ( Word t) := rfl
theorem CE_Plain_deref (v) (n) :
    CE.Plain (.deref v n : CE) =
      ( v.Plain ∧ 8 ≤ v.rank ∧ Word n) := rfl
theorem CE_Plain_dateTime (t) (p) :
    CE.Plain (.dateTime t p : CE) =
      ( (t = kwT (c% "CURRENT_DATE") ∧ p = none) ∨ (KwIn [c% "CURRENT_TIME", c% "CURRENT_TIMESTAMP", c% "LOCALTIME", c% "LOCALTIMESTAMP"] t ∧ Opt (fun t => t.kind = .int) p)) := rfl
theorem CE_Plain_session (t) :
    CE.Plain (.session t : CE) =
      ( KwIn [c% "CURRENT_USER", c% "CURRENT_CATALOG", c% "CURRENT_SCHEMA", c% "CURRENT_PATH"] t) := rfl
theorem CE_Plain_normalize (v) (f) :
    CE.Plain (.normalize v f : CE) =
      ( v.Plain ∧ 4 ≤ v.rank ∧ Opt (KwIn [c% "NFD", c% "NFC", c% "NFKD", c% "NFKC"]) f) := rfl
theorem CE_Plain_paren (e) :
    CE.Plain (.paren e : CE) =
      ( e.Plain ∧ e.isSub = false) := rfl
theorem CE_Plain_exists_ (q) :
    CE.Plain (.exists_ q : CE) =
      ( q.Plain) := rfl
theorem CE_Plain_position (l) (r) :
    CE.Plain (.position l r : CE) =
      ( l.Plain ∧ 4 ≤ l.rank ∧ r.Plain ∧ 4 ≤ r.rank) := rfl
theorem CE_Plain_substring (v) (f) (n) :
    CE.Plain (.substring v f n : CE) =
      ( v.Plain ∧ 4 ≤ v.rank ∧ f.Plain ∧ 4 ≤ f.rank ∧ CE.PlainOpt 4 n) := rfl
theorem CE_Plain_extract (t) (v) :
    CE.Plain (.extract t v : CE) =
      ( Word t ∧ v.Plain ∧ 4 ≤ v.rank) := rfl
theorem CE_Plain_trimFrom (s) (c) (v) :
    CE.Plain (.trimFrom s c v : CE) =
      ( Opt (KwIn [c% "LEADING", c% "TRAILING", c% "BOTH"]) s ∧ CE.PlainOpt 4 c ∧ (s = none → ∀ e, c = some e → NotTrim e.yield) ∧ v.Plain ∧ 4 ≤ v.rank) := rfl
theorem CE_Plain_trim (v) (c) :
    CE.Plain (.trim v c : CE) =
      ( v.Plain ∧ 4 ≤ v.rank ∧ NotTrim v.yield ∧ CE.PlainOpt 4 c) := rfl
theorem CE_Plain_grouping (ns) :
    CE.Plain (.grouping ns : CE) =
      ( ∀ n ∈ ns, n ≠ [] ∧ Words n) := rfl
theorem CE_Plains_nil :
    CE.Plains ([] : List CE) =
      ( True) := rfl
theorem CE_Plains_cons (e) (es) :
    CE.Plains (e :: es : List CE) =
      ( e.Plain ∧ CE.Plains es) := rfl
theorem CE_PlainOpt_none (p) :
    CE.PlainOpt p (none : Option CE) =
      ( True) := rfl
theorem CE_PlainOpt_some (p) (e) :
    CE.PlainOpt p (some e : Option CE) =
      ( e.Plain ∧ p ≤ e.rank) := rfl
theorem CWhen_Plains_nil :
    CWhen.Plains ([] : List CWhen) =
      ( True) := rfl
theorem CWhen_Plains_cons (c) (v) (ws) :
    CWhen.Plains (.mk c v :: ws : List CWhen) =
      ( c.Plain ∧ v.Plain ∧ CWhen.Plains ws) := rfl
theorem CSort_Plains_nil :
    CSort.Plains ([] : List CSort) =
      ( True) := rfl
theorem CSort_Plains_cons (e) (o) (n) (ss) :
    CSort.Plains (.mk e o n :: ss : List CSort) =
      ( e.Plain ∧ Opt (KwIn [c% "ASC", c% "DESC"]) o ∧ Opt (KwIn [c% "FIRST", c% "LAST"]) n ∧ CSort.Plains ss) := rfl
theorem CBound_Plain_unbounded (t) :
    CBound.Plain (.unbounded t : CBound) =
      ( KwIn [c% "PRECEDING", c% "FOLLOWING"] t) := rfl
theorem CBound_Plain_current :
    CBound.Plain (.current : CBound) =
      ( True) := rfl
theorem CBound_Plain_bounded (e) (t) :
    CBound.Plain (.bounded e t : CBound) =
      ( e.Plain ∧ KwIn [c% "PRECEDING", c% "FOLLOWING"] t) := rfl
theorem CFrame_Plain_none :
    CFrame.Plain (.none : CFrame) =
      ( True) := rfl
theorem CFrame_Plain_from_ (t) (b) :
    CFrame.Plain (.from_ t b : CFrame) =
      ( KwIn [c% "RANGE", c% "ROWS", c% "GROUPS"] t ∧ b.Plain) := rfl
theorem CFrame_Plain_between (t) (a) (b) :
    CFrame.Plain (.between t a b : CFrame) =
      ( KwIn [c% "RANGE", c% "ROWS", c% "GROUPS"] t ∧ a.Plain ∧ b.Plain) := rfl
theorem CWin_Plain_ref (t) :
    CWin.Plain (.ref t : CWin) =
      ( Word t) := rfl
theorem CWin_Plain_spec (p) (ps) (ob) (f) :
    CWin.Plain (.spec p ps ob f : CWin) =
      ( Opt Word p ∧ CE.Plains ps ∧ CSort.Plains ob ∧ f.Plain) := rfl
theorem CWin_PlainOpt_none :
    CWin.PlainOpt (none : Option CWin) =
      ( True) := rfl
theorem CWin_PlainOpt_some (w) :
    CWin.PlainOpt (some w : Option CWin) =
      ( w.Plain) := rfl
theorem CSet_Plain_paren (es) :
    CSet.Plain (.paren es : CSet) =
      ( CE.Plains es) := rfl
theorem CSet_Plain_expr (e) :
    CSet.Plain (.expr e : CSet) =
      ( e.Plain ∧ e.isSet = false) := rfl
theorem CSet_Plains_nil :
    CSet.Plains ([] : List CSet) =
      ( True) := rfl
theorem CSet_Plains_cons (s) (ss) :
    CSet.Plains (s :: ss : List CSet) =
      ( s.Plain ∧ CSet.Plains ss) := rfl
theorem CGrp_Plain_single (s) :
    CGrp.Plain (.single s : CGrp) =
      ( s.Plain) := rfl
theorem CGrp_Plain_rollup (es) :
    CGrp.Plain (.rollup es : CGrp) =
      ( CE.Plains es) := rfl
theorem CGrp_Plain_cube (es) :
    CGrp.Plain (.cube es : CGrp) =
      ( CE.Plains es) := rfl
theorem CGrp_Plain_sets (ss) :
    CGrp.Plain (.sets ss : CGrp) =
      ( ss ≠ [] ∧ CSet.Plains ss) := rfl
theorem CGrp_Plains_nil :
    CGrp.Plains ([] : List CGrp) =
      ( True) := rfl
theorem CGrp_Plains_cons (s) (ss) :
    CGrp.Plains (s :: ss : List CGrp) =
      ( s.Plain ∧ CGrp.Plains ss) := rfl
theorem CItem_Plain_expr (e) (b) (a) :
    CItem.Plain (.expr e b a : CItem) =
      ( e.Plain ∧ Opt Word a ∧ (b = true → a.isSome) ∧ (b = false → Opt NotTo a)) := rfl
theorem CItem_Plain_allOf (e) (cols) :
    CItem.Plain (.allOf e cols : CItem) =
      ( e.Plain ∧ 8 ≤ e.rank ∧ Words cols) := rfl
theorem CItem_Plain_all :
    CItem.Plain (.all : CItem) =
      ( True) := rfl
theorem CItem_Plains_nil :
    CItem.Plains ([] : List CItem) =
      ( True) := rfl
theorem CItem_Plains_cons (s) (ss) :
    CItem.Plains (s :: ss : List CItem) =
      ( s.Plain ∧ CItem.Plains ss) := rfl
theorem CWinDef_Plains_nil :
    CWinDef.Plains ([] : List CWinDef) =
      ( True) := rfl
theorem CWinDef_Plains_cons (n) (w) (ws) :
    CWinDef.Plains (.mk n w :: ws : List CWinDef) =
      ( Word n ∧ w.isSpec ∧ w.Plain ∧ CWinDef.Plains ws) := rfl
theorem CQ_Plain_mk (rc) (w) (b) :
    CQ.Plain (.mk rc w b : CQ) =
      ( (rc = true → w ≠ []) ∧ CNamed.Plains w ∧ b.Plain) := rfl
theorem CNamed_Plains_nil :
    CNamed.Plains ([] : List CNamed) =
      ( True) := rfl
theorem CNamed_Plains_cons (n) (cols) (q) (ns) :
    CNamed.Plains (.mk n cols q :: ns : List CNamed) =
      ( Word n ∧ Words cols ∧ q.Plain ∧ CNamed.Plains ns) := rfl
theorem CQN_Plain_mk (t) (ob) (off) (lim) :
    CQN.Plain (.mk t ob off lim : CQN) =
      ( t.Plain ∧ CSort.Plains ob ∧ PlainOffset off ∧ PlainLimit lim) := rfl
theorem CQT_Plain_set (op) (q) (l) (r) :
    CQT.Plain (.set op q l r : CQT) =
      ( KwIn [c% "UNION", c% "EXCEPT", c% "INTERSECT"] op ∧ Opt (KwIn [c% "DISTINCT", c% "ALL"]) q ∧ l.Plain ∧ r.Plain ∧ (if op = kwT (c% "INTERSECT") then 1 ≤ l.lvl ∧ 2 ≤ r.lvl else 1 ≤ r.lvl)) := rfl
theorem CQT_Plain_spec (q) (items) (fr) (wh) (gq) (gs) (hv) (ws) :
    CQT.Plain (.spec q items fr wh gq gs hv ws : CQT) =
      ( Opt (KwIn [c% "DISTINCT", c% "ALL"]) q ∧ items ≠ [] ∧ CItem.Plains items ∧ CR.Plains fr ∧ CE.PlainOpt 0 wh ∧ Opt (KwIn [c% "DISTINCT", c% "ALL"]) gq ∧ (gq.isSome → gs ≠ []) ∧ CGrp.Plains gs ∧ CE.PlainOpt 0 hv ∧ CWinDef.Plains ws) := rfl
theorem CQT_Plain_table (n) :
    CQT.Plain (.table n : CQT) =
      ( n ≠ [] ∧ Words n) := rfl
theorem CQT_Plain_values (es) :
    CQT.Plain (.values es : CQT) =
      ( es ≠ [] ∧ CE.Plains es) := rfl
theorem CQT_Plain_sub (q) :
    CQT.Plain (.sub q : CQT) =
      ( q.Plain) := rfl
theorem CR_Plain_cross (l) (r) :
    CR.Plain (.cross l r : CR) =
      ( l.Plain ∧ r.Plain ∧ 1 ≤ r.lvl) := rfl
theorem CR_Plain_join (l) (u1_) (r) (c) :
    CR.Plain (.join l u1_ r c : CR) =
      ( l.Plain ∧ r.Plain ∧ c.Plain) := rfl
theorem CR_Plain_natural (l) (u1_) (r) :
    CR.Plain (.natural l u1_ r : CR) =
      ( l.Plain ∧ r.Plain ∧ 1 ≤ r.lvl) := rfl
theorem CR_Plain_sample (r) (t) (e) :
    CR.Plain (.sample r t e : CR) =
      ( r.Plain ∧ 2 ≤ r.lvl ∧ KwIn [c% "BERNOULLI", c% "SYSTEM"] t ∧ e.Plain) := rfl
theorem CR_Plain_alias (r) (u1_) (n) (cols) :
    CR.Plain (.alias r u1_ n cols : CR) =
      ( r.Plain ∧ 3 ≤ r.lvl ∧ Word n ∧ Words cols) := rfl
theorem CR_Plain_table (n) :
    CR.Plain (.table n : CR) =
      ( n ≠ [] ∧ Words n) := rfl
theorem CR_Plain_sub (q) :
    CR.Plain (.sub q : CR) =
      ( q.Plain) := rfl
theorem CR_Plain_unnest (es) (u1_) :
    CR.Plain (.unnest es u1_ : CR) =
      ( es ≠ [] ∧ CE.Plains es) := rfl
theorem CR_Plain_lateral (q) :
    CR.Plain (.lateral q : CR) =
      ( q.Plain) := rfl
theorem CR_Plain_paren (r) :
    CR.Plain (.paren r : CR) =
      ( r.Plain ∧ r.isSub = false) := rfl
theorem CR_Plains_nil :
    CR.Plains ([] : List CR) =
      ( True) := rfl
theorem CR_Plains_cons (s) (ss) :
    CR.Plains (s :: ss : List CR) =
      ( s.Plain ∧ CR.Plains ss) := rfl
theorem CCrit_Plain_on (e) :
    CCrit.Plain (.on e : CCrit) =
      ( e.Plain) := rfl
theorem CCrit_Plain_using (cols) :
    CCrit.Plain (.using cols : CCrit) =
      ( cols ≠ [] ∧ Words cols) := rfl

end Treeno
