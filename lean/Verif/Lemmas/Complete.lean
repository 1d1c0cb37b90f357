import Verif.Lemmas.CompleteQuery
/-!
# Plain parse trees are read back
-/
set_option linter.unusedSimpArgs false
set_option linter.unusedVariables false
namespace Treeno
open Spec

theorem good_or {l r : CE} (hc : (CE.or_ l r).Plain) (hl : Good l) (hr : Good r) : Good (.or_ l r) := by
  have h := hc
  rw [CE_Plain_or_] at h
  exact good_bin hc (k := 0) rfl (by unfold isBin; omega) (t := kwT (c% "OR")) (f := CE.or_) rfl rfl (CE_yield_or_ l r) hl h.2.1 (by omega) hr h.2.2.2

theorem notLam {c : CE} (h : 1 ≤ c.rank) : c.isLam = false := by
  cases c <;> first | rfl | (simp [CE.rank] at h; done)

theorem good_and {l r : CE} (hc : (CE.and_ l r).Plain) (hl : Good l) (hr : Good r) : Good (.and_ l r) := by
  have h := hc
  rw [CE_Plain_and_] at h
  exact good_bin hc (k := 1) rfl (by unfold isBin; omega) (t := kwT (c% "AND")) (f := CE.and_) rfl rfl (CE_yield_and_ l r) hl (notLam h.2.1) h.2.1 hr h.2.2.2

theorem good_concat {l r : CE} (hc : (CE.concat l r).Plain) (hl : Good l) (hr : Good r) : Good (.concat l r) := by
  have h := hc
  rw [CE_Plain_concat] at h
  exact good_bin hc (k := 4) rfl (by unfold isBin; omega) (t := symT (c% "||")) (f := CE.concat) rfl rfl (CE_yield_concat l r) hl (notLam (by omega)) h.2.1 hr h.2.2.2

theorem good_arith {op : Tok} {l r : CE} (hc : (CE.arith op l r).Plain) (hl : Good l) (hr : Good r) : Good (.arith op l r) := by
  have h := hc
  rw [CE_Plain_arith] at h
  obtain ⟨_, _, h⟩ := h
  rcases h with ⟨ho, h1, h2⟩ | ⟨ho, h1, h2⟩
  · refine good_bin hc (k := 5) ?_ (by unfold isBin; omega) (t := op) (f := CE.arith op) ?_ rfl (CE_yield_arith op l r) hl (notLam (by omega)) h1 hr h2
    · obtain ⟨s, hs, rfl⟩ := symIn_of ho
      simp at hs; rcases hs with rfl | rfl <;> rfl
    · simp [binOp, symIn_isSymOf ho]
  · refine good_bin hc (k := 6) ?_ (by unfold isBin; omega) (t := op) (f := CE.arith op) ?_ rfl (CE_yield_arith op l r) hl (notLam (by omega)) h1 hr h2
    · obtain ⟨s, hs, rfl⟩ := symIn_of ho
      simp at hs; rcases hs with rfl | rfl | rfl <;> rfl
    · simp [binOp, symIn_isSymOf ho]

theorem forall_cons {α : Type} {p : α → Prop} {a : α} {l : List α} (h : p a) (hl : ∀ x ∈ l, p x) : ∀ x ∈ a :: l, p x := by
  intro x hx
  rcases List.mem_cons.1 hx with rfl | hx
  · exact h
  · exact hl x hx

theorem forall_nil {α : Type} {p : α → Prop} : ∀ x ∈ ([] : List α), p x := by simp
theorem forall_none {α : Type} {p : α → Prop} : ∀ x, (none : Option α) = some x → p x := by simp
theorem forall_some {α : Type} {p : α → Prop} {a : α} (h : p a) : ∀ x, some a = some x → p x := by
  intro x hx; cases hx; exact h

mutual
theorem CE.good : ∀ c : CE, c.Plain → Good c
  | .or_ l r, h => have h' := (CE_Plain_or_ l r) ▸ h; good_or h (CE.good l h'.1) (CE.good r h'.2.2.1)
  | .and_ l r, h => have h' := (CE_Plain_and_ l r) ▸ h; good_and h (CE.good l h'.1) (CE.good r h'.2.2.1)
  | .not_ v, h => have h' := (CE_Plain_not_ v) ▸ h; good_not h (CE.good v h'.1) h'.2
  | .cmp op l r, h => have h' := (CE_Plain_cmp op l r) ▸ h; good_cmp h (CE.good l h'.2.1) (CE.good r h'.2.2.2.1)
  | .between n v l u, h => have h' := (CE_Plain_between n v l u) ▸ h
    good_between h (CE.good v h'.1) (CE.good l h'.2.2.1) (CE.good u h'.2.2.2.2.1)
  | .inList n v es, h => have h' := (CE_Plain_inList n v es) ▸ h; good_inList h (CE.good v h'.1) (CE.goods es h'.2.2.2)
  | .inSub n v q, h => have h' := (CE_Plain_inSub n v q) ▸ h
    good_inSub h (CE.good v h'.1) (sub_ok (CQ.good q h'.2.2.1)) (in_start h'.2.2.1 h'.2.2.2)
  | .like n v p esc, h => have h' := (CE_Plain_like n v p esc) ▸ h
    good_like h (CE.good v h'.1) (CE.good p h'.2.2.1) (CE.goodOpt 4 esc h'.2.2.2.2)
  | .isNull n v, h => have h' := (CE_Plain_isNull n v) ▸ h; good_isNull h (CE.good v h'.1)
  | .distinct n l r, h => have h' := (CE_Plain_distinct n l r) ▸ h; good_distinct h (CE.good l h'.1) (CE.good r h'.2.2.1)
  | .concat l r, h => have h' := (CE_Plain_concat l r) ▸ h; good_concat h (CE.good l h'.1) (CE.good r h'.2.2.1)
  | .arith op l r, h => have h' := (CE_Plain_arith op l r) ▸ h; good_arith h (CE.good l h'.1) (CE.good r h'.2.1)
  | .sign op v, h => have h' := (CE_Plain_sign op v) ▸ h; good_sign h (CE.good v h'.1)
  | .null, _ => good_null
  | .interval a b c d, h => good_interval h
  | .typeCtor n s, h => good_typeCtor h
  | .doublePrecision s, h => good_doublePrecision h
  | .num m t, h => good_num h
  | .bool t, h => good_bool h
  | .str s, h => good_str h
  | .binary t, h => good_binary h
  | .param, _ => good_param
  | .row es, h => have h' := (CE_Plain_row es) ▸ h; good_row h (CE.goods es h'.2)
  | .rowKw es, h => have h' := (CE_Plain_rowKw es) ▸ h; good_rowKw h (CE.goods es h'.2)
  | .listagg q e sep ov ob, h => have h' := (CE_Plain_listagg q e sep ov ob) ▸ h
    good_listagg h (CE.good e h'.2.1) (CSort.goods ob h'.2.2.2.2.2)
  | .callStar n l f w, h => have h' := (CE_Plain_callStar n l f w) ▸ h
    good_callStar h (CE.goodOpt 0 f h'.2.2.2.1) (CWin.goodOpt w h'.2.2.2.2)
  | .call n q args ob f ign w, h => have h' := (CE_Plain_call n q args ob f ign w) ▸ h
    good_call h (CE.goods args h'.2.2.2.2.1) (CSort.goods ob h'.2.2.2.2.2.1) (CE.goodOpt 0 f h'.2.2.2.2.2.2.1) (CWin.goodOpt w h'.2.2.2.2.2.2.2.2)
  | .lam p ids b, h => have h' := (CE_Plain_lam p ids b) ▸ h; good_lam h (CE.good b h'.2.2)
  | .sub q, h => have h' := (CE_Plain_sub q) ▸ h; good_sub h (sub_ok (CQ.good q h')) (q_start h')
  | .case v ws e, h => have h' := (CE_Plain_case v ws e) ▸ h
    good_case h (CE.goodOpt 0 v h'.1) (CWhen.goods ws h'.2.2.1) (CE.goodOpt 0 e h'.2.2.2)
  | .cast tr e ty ts, h => have h' := (CE_Plain_cast tr e ty ts) ▸ h; good_cast h (CE.good e h'.1)
  | .array es, h => have h' := (CE_Plain_array es) ▸ h; good_array h (CE.goods es h')
  | .subscript v i, h => have h' := (CE_Plain_subscript v i) ▸ h; good_subscript h (CE.good v h'.1) (CE.good i h'.2.2.1)
  | .col t, h => good_col h
  | .deref v n, h => have h' := (CE_Plain_deref v n) ▸ h; good_deref h (CE.good v h'.1)
  | .dateTime t p, h => good_dateTime h
  | .session t, h => good_session h
  | .normalize v f, h => have h' := (CE_Plain_normalize v f) ▸ h; good_normalize h (CE.good v h'.1)
  | .quantified op k l q, h => have h' := (CE_Plain_quantified op k l q) ▸ h
    good_quantified h (CE.good l h'.2.2.1) (sub_ok (CQ.good q h'.2.2.2.2.1)) (in_start h'.2.2.2.2.1 h'.2.2.2.2.2)
  | .atZone a b, h => have h' := (CE_Plain_atZone a b) ▸ h; good_atZone h (CE.good a h'.1)
  | .exists_ a, h => have h' := (CE_Plain_exists_ a) ▸ h; good_exists h (sub_ok (CQ.good a h'))
  | .position a b, h => have h' := (CE_Plain_position a b) ▸ h; good_position h (CE.good a h'.1) (CE.good b h'.2.2.1)
  | .substring a b c, h => have h' := (CE_Plain_substring a b c) ▸ h
    good_substring h (CE.good a h'.1) (CE.good b h'.2.2.1) (CE.goodOpt 4 c h'.2.2.2.2)
  | .extract a b, h => have h' := (CE_Plain_extract a b) ▸ h; good_extract h (CE.good b h'.2.1)
  | .trimFrom a b c, h => have h' := (CE_Plain_trimFrom a b c) ▸ h
    good_trimFrom h (CE.goodOpt 4 b h'.2.1) (CE.good c h'.2.2.2.1)
  | .trim a b, h => have h' := (CE_Plain_trim a b) ▸ h; good_trim h (CE.good a h'.1) (CE.goodOpt 4 b h'.2.2.2)
  | .grouping a, h => good_grouping h
  | .paren e, h => have h' := (CE_Plain_paren e) ▸ h; good_paren h (CE.good e h'.1)
theorem CE.goods : ∀ es : List CE, CE.Plains es → ∀ e ∈ es, Good e
  | [], _ => forall_nil
  | e :: es, h => have h' := (CE_Plains_cons e es) ▸ h; forall_cons (CE.good e h'.1) (CE.goods es h'.2)
theorem CE.goodOpt (p : Nat) : ∀ o : Option CE, CE.PlainOpt p o → ∀ e, o = some e → Good e
  | none, _ => forall_none
  | some e, h => have h' := (CE_PlainOpt_some p e) ▸ h; forall_some (CE.good e h'.1)
theorem CWhen.goods : ∀ es : List CWhen, CWhen.Plains es → ∀ e ∈ es, WhenGood e
  | [], _ => forall_nil
  | .mk c v :: es, h => have h' := (CWhen_Plains_cons c v es) ▸ h
    forall_cons ⟨CE.good c h'.1, CE.good v h'.2.1⟩ (CWhen.goods es h'.2.2)
theorem CSort.goods : ∀ es : List CSort, CSort.Plains es → ∀ e ∈ es, SortGood e
  | [], _ => forall_nil
  | .mk e o n :: es, h => have h' := (CSort_Plains_cons e o n es) ▸ h
    forall_cons (sort_good (CE.good e h'.1) h'.2.1 h'.2.2.1) (CSort.goods es h'.2.2.2)
theorem CBound.good : ∀ b : CBound, b.Plain → BoundGood b
  | .unbounded t, h => bound_unbounded ((CBound_Plain_unbounded t) ▸ h)
  | .current, _ => bound_current
  | .bounded e t, h => have h' := (CBound_Plain_bounded e t) ▸ h; bound_bounded h'.1 (CE.good e h'.1) h'.2
theorem CFrame.good : ∀ f : CFrame, f.Plain → FrameGood f
  | .none, _ => frame_none
  | .from_ t b, h => have h' := (CFrame_Plain_from_ t b) ▸ h; frame_from h'.1 h'.2 (CBound.good b h'.2)
  | .between t a b, h => have h' := (CFrame_Plain_between t a b) ▸ h; frame_between h'.1 (CBound.good a h'.2.1) (CBound.good b h'.2.2)
theorem CWin.good : ∀ w : CWin, w.Plain → WinGood w
  | .ref t, h => win_ref ((CWin_Plain_ref t) ▸ h)
  | .spec p ps ob f, h => have h' := (CWin_Plain_spec p ps ob f) ▸ h
    win_spec h'.1 (CE.goods ps h'.2.1) (CSort.goods ob h'.2.2.1) h'.2.2.2 (CFrame.good f h'.2.2.2)
theorem CWin.goodOpt : ∀ o : Option CWin, CWin.PlainOpt o → ∀ e, o = some e → WinGood e
  | none, _ => forall_none
  | some e, h => have h' := (CWin_PlainOpt_some e) ▸ h; forall_some (CWin.good e h')
theorem CSet.good : ∀ s : CSet, s.Plain → SetGood s
  | .paren es, h => have h' := (CSet_Plain_paren es) ▸ h; set_paren h' (CE.goods es h')
  | .expr e, h => have h' := (CSet_Plain_expr e) ▸ h; set_expr h'.1 (CE.good e h'.1) h'.2
theorem CSet.goods : ∀ es : List CSet, CSet.Plains es → ∀ e ∈ es, SetGood e
  | [], _ => forall_nil
  | e :: es, h => have h' := (CSet_Plains_cons e es) ▸ h; forall_cons (CSet.good e h'.1) (CSet.goods es h'.2)
theorem CGrp.good : ∀ s : CGrp, s.Plain → GrpGood s
  | .single s, h => have h' := (CGrp_Plain_single s) ▸ h; grp_single h' (CSet.good s h')
  | .rollup es, h => have h' := (CGrp_Plain_rollup es) ▸ h; grp_rollup h' (CE.goods es h')
  | .cube es, h => have h' := (CGrp_Plain_cube es) ▸ h; grp_cube h' (CE.goods es h')
  | .sets ss, h => have h' := (CGrp_Plain_sets ss) ▸ h; grp_sets h'.1 (CSet.goods ss h'.2)
theorem CGrp.goods : ∀ es : List CGrp, CGrp.Plains es → ∀ e ∈ es, GrpGood e
  | [], _ => forall_nil
  | e :: es, h => have h' := (CGrp_Plains_cons e es) ▸ h; forall_cons (CGrp.good e h'.1) (CGrp.goods es h'.2)
theorem CItem.good : ∀ i : CItem, i.Plain → ItemGood i
  | .expr e b a, h => have h' := (CItem_Plain_expr e b a) ▸ h; item_expr h'.1 (CE.good e h'.1) h'.2.1 h'.2.2.1 h'.2.2.2
  | .allOf e cols, h => have h' := (CItem_Plain_allOf e cols) ▸ h; item_allOf h'.1 (CE.good e h'.1) h'.2.1 h'.2.2
  | .all, _ => item_all
theorem CItem.goods : ∀ es : List CItem, CItem.Plains es → ∀ e ∈ es, ItemGood e
  | [], _ => forall_nil
  | e :: es, h => have h' := (CItem_Plains_cons e es) ▸ h; forall_cons (CItem.good e h'.1) (CItem.goods es h'.2)
theorem CWinDef.goods : ∀ es : List CWinDef, CWinDef.Plains es → ∀ e ∈ es, WDefGood e
  | [], _ => forall_nil
  | .mk n w :: es, h => have h' := (CWinDef_Plains_cons n w es) ▸ h
    forall_cons (wdef_good h'.1 h'.2.1 (CWin.good w h'.2.2.1)) (CWinDef.goods es h'.2.2.2)
theorem CQ.good : ∀ q : CQ, q.Plain → QGood q
  | .mk rc w b, h => have h' := (CQ_Plain_mk rc w b) ▸ h
    q_good h'.1 h'.2.1 (CNamed.goods w h'.2.1) (CQN.good b h'.2.2)
theorem CNamed.goods : ∀ es : List CNamed, CNamed.Plains es → ∀ e ∈ es, NamedGood e
  | [], _ => forall_nil
  | .mk n cols q :: es, h => have h' := (CNamed_Plains_cons n cols q es) ▸ h
    forall_cons (named_good h'.1 h'.2.1 (CQ.good q h'.2.2.1)) (CNamed.goods es h'.2.2.2)
theorem CQN.good : ∀ q : CQN, q.Plain → QNGood q
  | .mk t ob off lim, h => have h' := (CQN_Plain_mk t ob off lim) ▸ h
    qn_good (CQT.good t h'.1) (CSort.goods ob h'.2.1) h'.2.2.1 h'.2.2.2
theorem CQT.good : ∀ q : CQT, q.Plain → QTGood q
  | .set a b l r, h => have h' := (CQT_Plain_set a b l r) ▸ h; qt_set h (CQT.good l h'.2.2.1) (CQT.good r h'.2.2.2.1)
  | .spec q items fr wh gq gs hv ws, h => have h' := (CQT_Plain_spec q items fr wh gq gs hv ws) ▸ h
    qt_spec h (CItem.goods items h'.2.2.1) (CR.goods fr h'.2.2.2.1) (CE.goodOpt 0 wh h'.2.2.2.2.1) (CGrp.goods gs h'.2.2.2.2.2.2.2.1)
      (CE.goodOpt 0 hv h'.2.2.2.2.2.2.2.2.1) (CWinDef.goods ws h'.2.2.2.2.2.2.2.2.2)
  | .table n, h => have h' := (CQT_Plain_table n) ▸ h; qt_table h'.1 h'.2
  | .values es, h => have h' := (CQT_Plain_values es) ▸ h; qt_values h'.1 (CE.goods es h'.2)
  | .sub q, h => have h' := (CQT_Plain_sub q) ▸ h; qt_sub (CQN.good q h')
theorem CR.good : ∀ r : CR, r.Plain → RGood r
  | .cross l r, h => have h' := (CR_Plain_cross l r) ▸ h; rel_cross (CR.good l h'.1) (CR.good r h'.2.1) h'.2.2
  | .join l t r c, h => have h' := (CR_Plain_join l t r c) ▸ h; rel_join (CR.good l h'.1) (CR.good r h'.2.1) (CCrit.good c h'.2.2)
  | .natural l t r, h => have h' := (CR_Plain_natural l t r) ▸ h; rel_natural (CR.good l h'.1) (CR.good r h'.2.1) h'.2.2
  | .sample r t e, h => have h' := (CR_Plain_sample r t e) ▸ h; rel_sample (CR.good r h'.1) h'.2.1 h'.2.2.1 (CE.good e h'.2.2.2)
  | .alias r b n cols, h => have h' := (CR_Plain_alias r b n cols) ▸ h; rel_alias (CR.good r h'.1) h'.2.1 h'.2.2.1 h'.2.2.2
  | .table n, h => have h' := (CR_Plain_table n) ▸ h; rel_table h'.1 h'.2
  | .sub q, h => have h' := (CR_Plain_sub q) ▸ h; rel_sub (CQ.good q h') (q_start h')
  | .unnest es o, h => have h' := (CR_Plain_unnest es o) ▸ h; rel_unnest h'.1 (CE.goods es h'.2)
  | .lateral q, h => have h' := (CR_Plain_lateral q) ▸ h; rel_lateral (CQ.good q h')
  | .paren r, h => have h' := (CR_Plain_paren r) ▸ h; rel_paren h'.1 h'.2 (CR.good r h'.1)
theorem CR.goods : ∀ es : List CR, CR.Plains es → ∀ e ∈ es, RGood e
  | [], _ => forall_nil
  | e :: es, h => have h' := (CR_Plains_cons e es) ▸ h; forall_cons (CR.good e h'.1) (CR.goods es h'.2)
theorem CCrit.good : ∀ c : CCrit, c.Plain → CritGood c
  | .on e, h => have h' := (CCrit_Plain_on e) ▸ h; crit_on (CE.good e h')
  | .using cols, h => have h' := (CCrit_Plain_using cols) ▸ h; crit_using h'.1 h'.2
end

end Treeno
