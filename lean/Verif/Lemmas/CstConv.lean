import Verif.Lemmas.Dropped
import Verif.Lemmas.ConvParts
/-!
# Converting the parse tree of a printed text gives the tree back
-/
namespace Treeno
open Spec

theorem item_conv {e : Expr} {t : Ty} (ht : e.Tidy true) (hc : e.reread.check = .ok t)
    (ih : e.isStar = false → ∀ t, (rr false (unalias e)).check = .ok t → (e.cst false).conv = .ok (rr false (unalias e))) :
    (itemCst e (e.cst false)).conv = .ok e.reread := by
  cases e
  case «alias» v n =>
    rw [Expr_Tidy_alias] at ht
    rw [Expr_reread_alias] at hc ⊢
    have hc2 := hc
    rw [Expr_check_alias] at hc2
    obtain ⟨a, ha, -⟩ := bind_ok hc2
    refine (CItem_conv_expr ..).trans (ebind (ih rfl a ha) (ebind (ebind (ident_name ht.2.1) rfl) (build_ok hc)))
  case star s ty =>
    rw [Expr_reread_star] at hc ⊢
    show (starItem (truthy s)).conv = _
    cases hs : truthy s with
    | none => exact (CItem_conv_all ..).trans (build_ok rfl)
    | some w =>
      refine (CItem_conv_allOf ..).trans (ebind ((CE_conv_col ..).trans (ebind (ident_word w) (build_ok rfl))) (ebind (build_ok rfl) rfl))
  case starOf => rw [Expr_Tidy_starOf] at ht; exact ht.elim
  all_goals exact (CItem_conv_expr ..).trans (ebind (ih rfl t hc) rfl)

/-- A node that cannot take a NOT. -/
theorem not_neg {e : Expr} {neg : Bool} (hn : neg = true → e.negatable = true) (h : e.negatable = false) : neg = false := by
  cases neg with
  | false => rfl
  | true => rw [hn rfl] at h; exact nomatch h

theorem star_rr {e : Expr} (h : e.isStar = true) : e.isStar = false → False := by rw [h]; exact fun h => nomatch h

theorem rowc_limit {t : Tok} (h : t.kind = .int) : rowCountOf t = .ok (digitsVal t.text : Int) ∧ limitOf t = .ok (some (digitsVal t.text : Int)) := by
  unfold rowCountOf limitOf
  rw [if_pos h, if_pos h]
  exact ⟨rfl, rfl⟩

theorem query_tail {b : QBody} {off lim : Option Int} {ob : List Ord} {w : List Named} {cb : CQT} {cob : List CSort} {cw : List CNamed}
    (hb : cb.conv = .ok (some (.mk b none none [] []))) (ho : CSort.convs cob = .ok ob) (hw : CNamed.convs cw = .ok w)
    (h1 : IfAny (fun n => 0 ≤ n) off) (h2 : IfAny (fun n => 0 ≤ n) lim) :
    (queryCst false cb (rowsTok off) (rowsTok lim) cob cw).conv = .ok (some (.mk b (rowsOf off) (rowsOf lim) ob w)) := by
  have e1 : orderQuery ob (some (.mk b none none [] [])) = .ok (some (.mk b none none ob [])) := by
    cases ob <;> rfl
  have e2 : offsetQuery ((rowsTok off).map fun t => (t, none)) (some (.mk b none none ob [])) = .ok (some (.mk b (rowsOf off) none ob [])) := by
    rcases rows_conv h1 with ⟨a, c⟩ | ⟨t, a, k, c⟩
    · rw [a, c]; rfl
    · rw [a, c]; exact ebind (rowc_limit k).1 rfl
  have e3 : limitQuery (limitCst (rowsTok lim)) (some (.mk b (rowsOf off) none ob [])) = .ok (some (.mk b (rowsOf off) (rowsOf lim) ob [])) := by
    rcases rows_conv h2 with ⟨a, c⟩ | ⟨t, a, k, c⟩
    · rw [a, c]; rfl
    · rw [a, c]; exact ebind (rowc_limit k).2 rfl
  have e4 : withQuery w (some (.mk b (rowsOf off) (rowsOf lim) ob [])) = .ok (some (.mk b (rowsOf off) (rowsOf lim) ob w)) := by
    cases w <;> rfl
  show (CQ.mk false cw (.mk cb cob _ _)).conv = _
  rw [CQ_conv_mk, CQN_conv_mk]
  refine ebind (ebind hb (ebind ho (ebind e1 (ebind e2 e3)))) ?_
  exact ebind hw e4

set_option maxHeartbeats 1600000 in
mutual
theorem cv_expr : ∀ (e : Expr) (item : Bool), e.Tidy item → e.Fits → ∀ neg : Bool, (neg = true → e.negatable = true) →
    e.isStar = false → ∀ t, (rr neg (unalias e)).check = .ok t → (e.cst neg).conv = .ok (rr neg (unalias e))
  | .lit v ty, _, ht, hf, neg, hn, _, t, hc => by
    cases not_neg hn rfl
    rw [Expr_Tidy_lit] at ht
    rw [Expr_Fits_lit] at hf
    rw [Expr_cst_lit]
    exact litCst_conv ht hf
  | .field n s ty, _, ht, _, neg, hn, _, t, hc => by
    cases not_neg hn rfl
    rw [Expr_Tidy_field] at ht
    rw [Expr_cst_field]
    show _ = Except.ok (Expr.field n (truthy s) .unknown)
    cases hs : truthy s with
    | none => exact (CE_conv_col ..).trans (ebind (ident_name ht.1) (build_ok rfl))
    | some w =>
      exact (CE_conv_deref ..).trans (ebind ((CE_conv_col ..).trans (ebind (ident_name (ht.2 w hs)) (build_ok rfl)))
        (ebind (ident_name ht.1) (build_ok rfl)))
  | .fieldOf _ _ _, _, ht, _, _, _, _, _, _ => ht.elim
  | .alias v n, _, ht, hf, neg, hn, _, t, hc => by
    cases not_neg hn rfl
    rw [Expr_Tidy_alias] at ht
    rw [Expr_Fits_alias] at hf
    rw [Expr_cst_alias]
    exact kid ht.2.2 hc (cv_expr v false ht.2.2 hf false nofun)
  | .star _ _, _, _, _, _, _, hs, _, _ => nomatch hs
  | .starOf _ _, _, ht, _, _, _, _, _, _ => ht.elim
  | .aliasedStar _ _, _, ht, _, _, _, _, _, _ => ht.elim
  | .var n, _, ht, hf, neg, hn, _, t, hc => by
    cases not_neg hn rfl
    rw [Expr_cst_var]
    exact (CE_conv_col ..).trans (ebind (ident_word n) (build_ok rfl))
  | .lam ins b, _, ht, hf, neg, hn, _, t, hc => by
    cases not_neg hn rfl
    rw [Expr_Tidy_lam] at ht
    rw [Expr_Fits_lam] at hf
    rw [Expr_cst_lam, CE_conv_lam]
    replace hc : (Expr.lam ins (bind ins b.reread)).check = .ok t := hc
    have hc2 := hc
    rw [Expr_check_lam] at hc2
    obtain ⟨a, ha, -⟩ := bind_ok hc2
    rw [(lb_expr ins b.reread hf.2.2).2.1] at ha
    refine ebind (idents_words ins) (ebind (kid ht.2.2 ha (cv_expr b false ht.2.2 hf.2.1 false nofun)) ?_)
    rw [lambdaOf_eq hf.2.2]
    exact build_ok hc
  | .un op v, _, ht, hf, neg, hn, _, t, hc => by
    cases not_neg hn rfl
    rw [Expr_Tidy_un] at ht
    rw [Expr_Fits_un] at hf
    rw [Expr_cst_un]
    replace hc : (signedOf op v.reread).check = .ok t := hc
    show _ = Except.ok (signedOf op v.reread)
    rcases signCst_cases op ht.1 (needsParen (some 8) v.prec true) with ⟨rfl, h1, h2, c, h3, h4⟩ | ⟨h1, h2⟩
    · rw [h4, CE_conv_num]
      exact neg_number ht.1 hf.1 hf.2.2.1 h1 h3
    · have he := signed_eq h1 ht.2
      rw [he] at hc ⊢
      have hc2 := hc
      rw [Expr_check_un] at hc2
      rw [h2, CE_conv_sign]
      refine ebind (wkid _ ht.1 hc2 (cv_expr v false ht.1 hf.1 false nofun)) (ebind ?_ (build_ok hc))
      cases op <;> rfl
  | .bin op l r, _, ht, hf, neg, hn, _, t, hc => by
    rw [Expr_Tidy_bin] at ht
    rw [Expr_Fits_bin] at hf
    rw [Expr_cst_bin]
    obtain ⟨x, y, hx, hy⟩ := rr_bin_check hc
    exact binCst_conv (wkid _ ht.1 hx (cv_expr l false ht.1 hf.1 false nofun)) (wkid _ ht.2 hy (cv_expr r false ht.2 hf.2.1 false nofun)) hn hc
  | .not v, _, ht, hf, neg, hn, _, t, hc => by
    cases not_neg hn rfl
    rw [Expr_Tidy_not] at ht
    rw [Expr_Fits_not] at hf
    rw [Expr_cst_not]
    replace hc : (notOf v v.reread).check = .ok t := hc
    show _ = Except.ok (notOf v v.reread)
    obtain ⟨hu, hs⟩ := unalias_tidy ht
    cases h : v.negatable with
    | true =>
      rw [if_pos rfl]
      have ih := cv_expr v false ht hf.1 true (fun _ => h) hs t
      rw [hu] at ih
      exact ih hc
    | false =>
      rw [if_neg (by decide), CE_conv_not_]
      have he := not_equality h
      have hno : notOf v v.reread = .not v.reread := by unfold notOf; rw [he]; rfl
      rw [hno] at hc ⊢
      have hc2 := hc
      rw [Expr_check_not] at hc2
      obtain ⟨a, ha, -⟩ := bind_ok hc2
      exact ebind (wkid _ ht ha (cv_expr v false ht hf.1 false nofun)) (build_ok hc)
  | .isNull v, _, ht, hf, neg, hn, _, t, hc => by
    rw [Expr_Tidy_isNull] at ht
    rw [Expr_Fits_isNull] at hf
    rw [Expr_cst_isNull, CE_conv_isNull]
    replace hc : (pred neg (.isNull v.reread)).check = .ok t := hc
    show _ = Except.ok (pred neg (.isNull v.reread))
    obtain ⟨u, hu⟩ := pred_check hc
    rw [Expr_check_isNull] at hu
    obtain ⟨a, ha, -⟩ := bind_ok hu
    exact ebind (wkid _ ht ha (cv_expr v false ht hf.1 false nofun)) (pred_conv hc)
  | .between v l u, _, ht, hf, neg, hn, _, t, hc => by
    rw [Expr_Tidy_between] at ht
    rw [Expr_Fits_between] at hf
    rw [Expr_cst_between, CE_conv_between]
    replace hc : (pred neg (.between v.reread l.reread u.reread)).check = .ok t := hc
    show _ = Except.ok (pred neg (.between v.reread l.reread u.reread))
    obtain ⟨y, hu⟩ := pred_check hc
    rw [Expr_check_between] at hu
    obtain ⟨a, ha, hu⟩ := bind_ok hu
    obtain ⟨b, hb, hu⟩ := bind_ok hu
    obtain ⟨c, hd, -⟩ := bind_ok hu
    exact ebind (wkid _ ht.1 ha (cv_expr v false ht.1 hf.1 false nofun)) (ebind (wkid _ ht.2.1 hb (cv_expr l false ht.2.1 hf.2.1 false nofun))
      (ebind (wkid _ ht.2.2 hd (cv_expr u false ht.2.2 hf.2.2.1 false nofun)) (pred_conv hc)))
  | .array vs, _, ht, hf, neg, hn, _, t, hc => by
    cases not_neg hn rfl
    rw [Expr_Tidy_array] at ht
    rw [Expr_Fits_array] at hf
    rw [Expr_cst_array, CE_conv_array]
    replace hc : (Expr.array (Expr.rereads vs)).check = .ok t := hc
    have hc2 := hc
    rw [Expr_check_array] at hc2
    obtain ⟨a, ha, -⟩ := bind_ok hc2
    exact ebind (cv_exprs vs ht hf a ha) (build_ok hc)
  | .inQuery v q, _, ht, hf, neg, hn, _, t, hc => by
    rw [Expr_Tidy_inQuery] at ht
    rw [Expr_Fits_inQuery] at hf
    rw [Expr_cst_inQuery, CE_conv_inSub]
    replace hc : (pred neg (.inQuery v.reread q.reread)).check = .ok t := hc
    show _ = Except.ok (pred neg (.inQuery v.reread q.reread))
    obtain ⟨y, hu⟩ := pred_check hc
    rw [Expr_check_inQuery] at hu
    obtain ⟨a, ha, hu⟩ := bind_ok hu
    obtain ⟨b, hb, -⟩ := bind_ok hu
    exact ebind (wkid _ ht.1 ha (cv_expr v false ht.1 hf.1 false nofun)) (ebind (cv_query q ht.2 hf.2.1 b hb) (ebind rfl (pred_conv hc)))
  | .inList v es, _, ht, hf, neg, hn, _, t, hc => by
    rw [Expr_Tidy_inList] at ht
    rw [Expr_Fits_inList] at hf
    rw [Expr_cst_inList, CE_conv_inList]
    replace hc : (pred neg (.inList v.reread (Expr.rereads es))).check = .ok t := hc
    show _ = Except.ok (pred neg (.inList v.reread (Expr.rereads es)))
    obtain ⟨y, hu⟩ := pred_check hc
    rw [Expr_check_inList] at hu
    obtain ⟨a, ha, hu⟩ := bind_ok hu
    obtain ⟨b, hb, -⟩ := bind_ok hu
    exact ebind (wkid _ ht.1 ha (cv_expr v false ht.1 hf.1 false nofun)) (ebind (cv_exprs es ht.2 hf.2.1 b hb) (pred_conv hc))
  | .like v p e, _, ht, hf, neg, hn, _, t, hc => by
    rw [Expr_Tidy_like] at ht
    rw [Expr_Fits_like] at hf
    rw [Expr_cst_like, CE_conv_like]
    replace hc : (pred neg (.like v.reread p.reread (Expr.rereadOpt e))).check = .ok t := hc
    show _ = Except.ok (pred neg (.like v.reread p.reread (Expr.rereadOpt e)))
    obtain ⟨y, hu⟩ := pred_check hc
    rw [Expr_check_like] at hu
    obtain ⟨a, ha, hu⟩ := bind_ok hu
    obtain ⟨b, hb, hu⟩ := bind_ok hu
    obtain ⟨c, hd, -⟩ := bind_ok hu
    exact ebind (wkid _ ht.1 ha (cv_expr v false ht.1 hf.1 false nofun)) (ebind (drop_ok (cv_opt e ht.2.2 hf.2.2.1 hd))
      (ebind (wkid _ ht.2.1 hb (cv_expr p false ht.2.1 hf.2.1 false nofun)) (pred_conv hc)))
  | .typeCtor v s, _, ht, hf, neg, hn, _, t, hc => by
    cases not_neg hn rfl
    rw [Expr_Tidy_typeCtor] at ht
    rw [Expr_cst_typeCtor, CE_conv_typeCtor]
    exact ebind (string_tok ht.1) (ebind (ident_word s) (build_ok hc))
  | .row vs, _, ht, hf, neg, hn, _, t, hc => by
    cases not_neg hn rfl
    rw [Expr_Tidy_row] at ht
    rw [Expr_Fits_row] at hf
    rw [Expr_cst_row, CE_conv_row]
    replace hc : (Expr.row (Expr.rereads vs)).check = .ok t := hc
    have hc2 := hc
    rw [Expr_check_row] at hc2
    obtain ⟨a, ha, -⟩ := bind_ok hc2
    exact ebind (cv_exprs vs ht hf.1 a ha) (build_ok hc)
  | .interval _ _ _, _, ht, _, _, _, _, _, _ => ht.elim
  | .cast tr e ty, _, ht, hf, neg, hn, _, t, hc => by
    cases not_neg hn rfl
    rw [Expr_Tidy_cast] at ht
    rw [Expr_Fits_cast] at hf
    rw [Expr_cst_cast, CE_conv_cast]
    replace hc : (Expr.cast tr e.reread ty).check = .ok t := hc
    have hc2 := hc
    rw [Expr_check_cast] at hc2
    obtain ⟨a, ha, -⟩ := bind_ok hc2
    exact ebind (kid ht ha (cv_expr e false ht hf.1 false nofun)) (ebind (conv_tyCst ty hf.2.1 hf.2.2) (build_ok hc))
  | .subscript v i, _, ht, hf, neg, hn, _, t, hc => by
    cases not_neg hn rfl
    rw [Expr_Tidy_subscript] at ht
    rw [Expr_Fits_subscript] at hf
    rw [Expr_cst_subscript, CE_conv_subscript]
    replace hc : (Expr.subscript v.reread i.reread).check = .ok t := hc
    have hc2 := hc
    rw [Expr_check_subscript] at hc2
    obtain ⟨a, ha, hc2⟩ := bind_ok hc2
    obtain ⟨b, hb, -⟩ := bind_ok hc2
    exact ebind (kid ht.1 ha (cv_expr v false ht.1 hf.1 false nofun)) (ebind (kid ht.2 hb (cv_expr i false ht.2 hf.2.1 false nofun)) (build_ok hc))
  | .case v bs e, _, ht, hf, neg, hn, _, t, hc => by
    cases not_neg hn rfl
    rw [Expr_Tidy_case] at ht
    rw [Expr_Fits_case] at hf
    rw [Expr_cst_case, CE_conv_case]
    replace hc : (Expr.case (Expr.rereadOpt v) (Expr.rereadWhens bs) (Expr.rereadOpt e)).check = .ok t := hc
    have hc2 := hc
    rw [Expr_check_case] at hc2
    obtain ⟨a, ha, hc2⟩ := bind_ok hc2
    obtain ⟨b, hb, hc2⟩ := bind_ok hc2
    obtain ⟨c, hd, -⟩ := bind_ok hc2
    exact ebind (cv_whens bs ht.2.2.1 hf.2.1 b hb) (ebind (drop_ok (cv_opt v ht.1 hf.1 ha)) (ebind (cv_opt e ht.2.2.2 hf.2.2 hd) (build_ok hc)))
  | .func f as, _, ht, hf, neg, hn, _, t, hc => by
    cases not_neg hn rfl
    rw [Expr_Tidy_func] at ht
    rw [Expr_Fits_func] at hf
    rw [Expr_cst_func, CE_conv_call]
    replace hc : (Expr.func f (Expr.rereads as)).check = .ok t := hc
    have hc2 := hc
    rw [Expr_check_func] at hc2
    obtain ⟨a, ha, -⟩ := bind_ok hc2
    refine ebind (idents_words [f.name]) (ebind rfl (ebind rfl (ebind rfl (ebind (cv_exprs as ht hf.1 a ha) (call_fn ?_ hc)))))
    rw [rereads_length]
    exact hf.2
  | .agg f as ob fl w ign, _, ht, hf, neg, hn, _, t, hc => by
    cases not_neg hn rfl
    rw [Expr_Tidy_agg] at ht
    rw [Expr_Fits_agg] at hf
    rw [Expr_cst_agg]
    replace hc : (Expr.agg f (Expr.rereads as) (Ord.rereads ob) (Expr.rereadOpt fl) (Win.rereadOpt w) ign).check = .ok t := hc
    show _ = Except.ok (Expr.agg f (Expr.rereads as) (Ord.rereads ob) (Expr.rereadOpt fl) (Win.rereadOpt w) ign)
    have hc2 := hc
    rw [Expr_check_agg] at hc2
    obtain ⟨a, ha, hc2⟩ := bind_ok hc2
    obtain ⟨u1, h1, hc2⟩ := bind_ok hc2
    obtain ⟨u2, h2, hc2⟩ := bind_ok hc2
    obtain ⟨u3, h3, -⟩ := bind_ok hc2
    have hw := cv_wopt w ht.2.2.2.2.2 hf.2.2.2.1 h3
    have ho := cv_ords ob ht.2.2.2.1 hf.2.1 h1
    have hfl := cv_opt fl ht.2.2.2.2.1 hf.2.2.1 h2
    have hag : AggFits f (Expr.rereads as).length := by rw [rereads_length]; exact hf.2.2.2.2.1
    unfold aggCst
    cases hs : isStarArg as with
    | true =>
      rw [if_pos rfl, CE_conv_callStar]
      obtain ⟨rfl, rfl⟩ := ht.2.1 hs
      obtain ⟨s, ty, rfl⟩ := isStarArg_eq hs
      refine ebind (idents_words [f.name]) (ebind hw (ebind hfl (ebind (identOpt_words _) ?_)))
      exact call_agg hag hc
    | false =>
      rw [if_neg (by decide), CE_conv_call]
      have h4 := ht.1
      rw [hs] at h4
      refine ebind (idents_words [f.name]) (ebind hw (ebind ho (ebind hfl (ebind (cv_exprs as h4 hf.1 a ha) ?_))))
      exact call_agg hag hc
  | .listagg v sep ov ob, _, ht, hf, neg, hn, _, t, hc => by
    cases not_neg hn rfl
    rw [Expr_Tidy_listagg] at ht
    rw [Expr_Fits_listagg] at hf
    rw [Expr_cst_listagg, CE_conv_listagg]
    replace hc : (Expr.listagg v.reread sep ov (Ord.rereads ob)).check = .ok t := hc
    have hc2 := hc
    rw [Expr_check_listagg] at hc2
    obtain ⟨a, ha, hc2⟩ := bind_ok hc2
    obtain ⟨u1, h1, -⟩ := bind_ok hc2
    obtain ⟨s, hs, hd⟩ := sep_conv ht.2.1
    refine ebind hs (ebind (overflow_conv ht.2.2.1) (ebind (cv_ords ob ht.2.2.2 hf.2.1 h1) (ebind (kid ht.1 ha (cv_expr v false ht.1 hf.1 false nofun)) ?_)))
    rw [hd]
    exact build_ok hc
  | .curTime f p, _, ht, hf, neg, hn, _, t, hc => by
    cases not_neg hn rfl
    rw [Expr_Tidy_curTime] at ht
    rw [Expr_cst_curTime, CE_conv_dateTime]
    exact curTime_conv ht hc
  | .session f, _, ht, hf, neg, hn, _, t, hc => by
    cases not_neg hn rfl
    rw [Expr_cst_session]
    exact session_conv f
  | .normalize _ _, _, ht, _, _, _, _, _, _ => ht.elim
  | .query _, _, ht, _, _, _, _, _, _ => ht.elim
theorem cv_opt : ∀ (e : Option Expr), Expr.TidyOpt e → Expr.FitsOpt e → ∀ {u}, Expr.checkOpt (Expr.rereadOpt e) = .ok u →
    CE.convOpt (Expr.cstOpt e) = .ok (Expr.rereadOpt e)
  | none, _, _, _, _ => rfl
  | some e, ht, hf, u, hc => by
    rw [Expr_TidyOpt_some] at ht
    rw [Expr_FitsOpt_some] at hf
    rw [Expr_cstOpt_some, CE_convOpt_some]
    rw [Expr_rereadOpt_some, Expr_checkOpt_some] at hc
    obtain ⟨a, ha, -⟩ := bind_ok hc
    exact ebind (kid ht ha (cv_expr e false ht hf false nofun)) rfl
theorem cv_wopt : ∀ (w : Option Win), Win.TidyOpt w → Win.FitsOpt w → ∀ {u}, Win.checkOpt (Win.rereadOpt w) = .ok u →
    CWin.convOpt (Win.cstOpt w) = .ok (Win.rereadOpt w)
  | none, _, _, _, _ => rfl
  | some w, ht, hf, u, hc => by
    rw [Win_TidyOpt_some] at ht
    rw [Win_FitsOpt_some] at hf
    rw [Win_cstOpt_some, CWin_convOpt_some]
    rw [Win_rereadOpt_some, Win_checkOpt_some] at hc
    exact ebind (cv_win w ht hf hc) rfl
theorem cv_exprs : ∀ (es : List Expr), Expr.Tidys false es → Expr.Fitss es → ∀ ts, Expr.checks (Expr.rereads es) = .ok ts →
    CE.convs (Expr.csts es) = .ok (Expr.rereads es)
  | [], _, _, _, _ => rfl
  | e :: es, ht, hf, ts, hc => by
    rw [Expr_Tidys_cons] at ht
    rw [Expr_Fitss_cons] at hf
    rw [Expr_csts_cons, CE_convs_cons]
    rw [Expr_rereads_cons, Expr_checks_cons] at hc
    obtain ⟨a, ha, hc⟩ := bind_ok hc
    obtain ⟨b, hb, -⟩ := bind_ok hc
    exact ebind (kid ht.1 ha (cv_expr e false ht.1 hf.1 false nofun)) (ebind (cv_exprs es ht.2 hf.2 b hb) rfl)
theorem cv_items : ∀ (es : List Expr), Expr.Tidys true es → Expr.Fitss es → ∀ ts, Expr.checks (Expr.rereads es) = .ok ts →
    CItem.convs (Expr.items es) = .ok (Expr.rereads es)
  | [], _, _, _, _ => rfl
  | e :: es, ht, hf, ts, hc => by
    rw [Expr_Tidys_cons] at ht
    rw [Expr_Fitss_cons] at hf
    rw [Expr_items_cons, CItem_convs_cons]
    rw [Expr_rereads_cons, Expr_checks_cons] at hc
    obtain ⟨a, ha, hc⟩ := bind_ok hc
    obtain ⟨b, hb, -⟩ := bind_ok hc
    exact ebind (item_conv ht.1 ha (cv_expr e true ht.1 hf.1 false nofun)) (ebind (cv_items es ht.2 hf.2 b hb) rfl)
theorem cv_whens : ∀ (bs : List (Expr × Expr)), Expr.TidyWhens bs → Expr.FitsWhens bs → ∀ ts, Expr.checkWhens (Expr.rereadWhens bs) = .ok ts →
    CWhen.convs (Expr.cstWhens bs) = .ok (Expr.rereadWhens bs)
  | [], _, _, _, _ => rfl
  | (c, v) :: bs, ht, hf, ts, hc => by
    rw [Expr_TidyWhens_cons] at ht
    rw [Expr_FitsWhens_cons] at hf
    rw [Expr_cstWhens_cons, CWhen_convs_cons]
    rw [Expr_rereadWhens_cons, Expr_checkWhens_cons] at hc
    obtain ⟨a, ha, hc⟩ := bind_ok hc
    obtain ⟨b, hb, hc⟩ := bind_ok hc
    obtain ⟨d, hd, -⟩ := bind_ok hc
    exact ebind (kid ht.1 ha (cv_expr c false ht.1 hf.1 false nofun)) (ebind (kid ht.2.1 hb (cv_expr v false ht.2.1 hf.2.1 false nofun))
      (ebind (cv_whens bs ht.2.2 hf.2.2 d hd) rfl))
theorem cv_ords : ∀ (os : List Ord), Ord.Tidys os → Ord.Fitss os → ∀ {u}, Ord.checks (Ord.rereads os) = .ok u →
    CSort.convs (Ord.csts os) = .ok (Ord.rereads os)
  | [], _, _, _, _ => rfl
  | .mk v d nf :: os, ht, hf, u, hc => by
    rw [Ord_Tidys_cons, Ord_Tidy_mk] at ht
    rw [Ord_Fitss_cons, Ord_Fits_mk] at hf
    rw [Ord_csts_cons, Ord_cst_mk, CSort_convs_cons]
    rw [Ord_rereads_cons, Ord_reread_mk, Ord_checks_cons] at hc
    obtain ⟨a, ha, hc⟩ := bind_ok hc
    refine ebind (kid ht.1 ha (cv_expr v false ht.1 hf.1 false nofun)) (ebind (cv_ords os ht.2 hf.2 hc) ?_)
    cases d <;> cases nf <;> rfl
theorem cv_bound : ∀ (b : Bound), b.Tidy → b.Fits → ∀ {u}, b.reread.check = .ok u → b.cst.conv = .ok b.reread
  | .bounded k e, ht, hf, u, hc => by
    rw [Bound_Tidy_bounded] at ht
    rw [Bound_Fits_bounded] at hf
    rw [Bound_cst_bounded, CBound_conv_bounded]
    rw [Bound_reread_bounded, Bound_check_bounded] at hc
    obtain ⟨a, ha, -⟩ := bind_ok hc
    refine ebind (a := k) (by cases k <;> rfl) (ebind (kid ht ha (cv_expr e false ht hf false nofun)) rfl)
  | .unbounded k, _, _, _, _ => by cases k <;> rfl
  | .current, _, _, _, _ => rfl
theorem cv_win : ∀ (w : Win), w.Tidy → w.Fits → ∀ {u}, w.reread.check = .ok u → w.cst.conv = .ok w.reread
  | .mk p ob ps f st en, ht, hf, u, hc => by
    rw [Win_Tidy_mk] at ht
    rw [Win_Fits_mk] at hf
    rw [Win_cst_mk, CWin_conv_spec]
    rw [Win_reread_mk, Win_check_mk] at hc
    obtain ⟨a, ha, hc⟩ := bind_ok hc
    obtain ⟨b, hb, hc⟩ := bind_ok hc
    obtain ⟨d, hd, hc⟩ := bind_ok hc
    refine ebind (a := (f, st.reread, en.reread)) ?_ (ebind (cv_ords ob ht.2.1 hf.2.1 ha) (ebind (cv_exprs ps ht.2.2.1 hf.2.2.1 b hb)
      (ebind (identOpt_words _) rfl)))
    rw [CFrame_conv_between]
    exact ebind (a := f) (by cases f <;> rfl) (ebind (cv_bound st ht.2.2.2.1 hf.2.2.2.1 hd) (ebind (cv_bound en ht.2.2.2.2 hf.2.2.2.2 hc) rfl))
theorem cv_lists : ∀ (gs : List (List Expr)), Expr.TidyLists gs → Expr.FitsLists gs → ∀ {u}, Expr.checkLists (Expr.rereadLists gs) = .ok u →
    CSet.convs (Expr.cstLists gs) = .ok (Expr.rereadLists gs)
  | [], _, _, _, _ => rfl
  | vs :: gs, ht, hf, u, hc => by
    rw [Expr_TidyLists_cons] at ht
    rw [Expr_FitsLists_cons] at hf
    rw [Expr_cstLists_cons, CSet_convs_cons]
    rw [Expr_rereadLists_cons, Expr_checkLists_cons] at hc
    obtain ⟨a, ha, hc⟩ := bind_ok hc
    exact ebind (setCst_conv (cv_exprs vs ht.1 hf.1 a ha)) (ebind (cv_lists gs ht.2 hf.2.2 hc) rfl)
theorem cv_grp : ∀ (g : Grp), g.Tidy → g.Fits → ∀ {u}, g.reread.check = .ok u → g.cst.conv = .ok g.reread
  | .set vs, ht, hf, u, hc => by
    rw [Grp_Tidy_set] at ht
    rw [Grp_Fits_set] at hf
    rw [Grp_cst_set, CGrp_conv_single]
    rw [Grp_reread_set] at hc ⊢
    have hc2 := hc
    rw [Grp_check_set] at hc2
    obtain ⟨a, ha, -⟩ := bind_ok hc2
    exact ebind (setCst_conv (cv_exprs vs ht hf.1 a ha)) (grp_build hc)
  | .sets gs, ht, hf, u, hc => by
    rw [Grp_Tidy_sets] at ht
    rw [Grp_Fits_sets] at hf
    rw [Grp_cst_sets, CGrp_conv_sets]
    rw [Grp_reread_sets] at hc ⊢
    have hc2 := hc
    rw [Grp_check_sets] at hc2
    obtain ⟨a, ha, -⟩ := bind_ok hc2
    exact ebind (cv_lists gs ht hf.2 ha) (grp_build hc)
  | .cube vs, ht, hf, u, hc => by
    rw [Grp_Tidy_cube] at ht
    rw [Grp_Fits_cube] at hf
    rw [Grp_cst_cube, CGrp_conv_cube]
    rw [Grp_reread_cube] at hc ⊢
    have hc2 := hc
    rw [Grp_check_cube] at hc2
    obtain ⟨a, ha, -⟩ := bind_ok hc2
    exact ebind (cv_exprs vs ht hf a ha) (grp_build hc)
  | .rollup vs, ht, hf, u, hc => by
    rw [Grp_Tidy_rollup] at ht
    rw [Grp_Fits_rollup] at hf
    rw [Grp_cst_rollup, CGrp_conv_rollup]
    rw [Grp_reread_rollup] at hc ⊢
    have hc2 := hc
    rw [Grp_check_rollup] at hc2
    obtain ⟨a, ha, -⟩ := bind_ok hc2
    exact ebind (cv_exprs vs ht hf a ha) (grp_build hc)
theorem cv_grps : ∀ (gs : List Grp), Grp.Tidys gs → Grp.Fitss gs → ∀ {u}, Grp.checks (Grp.rereads gs) = .ok u →
    CGrp.convs (Grp.csts gs) = .ok (Grp.rereads gs)
  | [], _, _, _, _ => rfl
  | g :: gs, ht, hf, u, hc => by
    rw [Grp_Tidys_cons] at ht
    rw [Grp_Fitss_cons] at hf
    rw [Grp_csts_cons, CGrp_convs_cons]
    rw [Grp_rereads_cons, Grp_checks_cons] at hc
    obtain ⟨a, ha, hc⟩ := bind_ok hc
    exact ebind (cv_grp g ht.1 hf.1 ha) (ebind (cv_grps gs ht.2 hf.2 hc) rfl)
theorem cv_gopt : ∀ (g : Option GroupBy), GroupBy.TidyOpt g → GroupBy.FitsOpt g → ∀ {u}, GroupBy.checkOpt (GroupBy.rereadOpt g) = .ok u →
    ∃ gs, CGrp.convs (GroupBy.cstOpt g) = .ok gs ∧ groupByOf (groupDistinct g) gs = GroupBy.rereadOpt g
  | none, _, _, _, _ => ⟨[], rfl, rfl⟩
  | some (.mk gs d), ht, hf, u, hc => by
    rw [GroupBy_TidyOpt_some, GroupBy_Tidy_mk] at ht
    rw [GroupBy_FitsOpt_some, GroupBy_Fits_mk] at hf
    rw [GroupBy_rereadOpt_some, GroupBy_reread_mk, GroupBy_checkOpt_some, GroupBy_check_mk] at hc
    refine ⟨Grp.rereads gs, cv_grps gs ht.2 hf hc, ?_⟩
    cases gs with
    | nil => exact absurd rfl ht.1
    | cons g gs => rfl
theorem cv_query : ∀ (q : Query), q.Tidy → q.Fits → ∀ t, q.reread.check = .ok t → q.cst.conv = .ok (some q.reread)
  | .mk b off lim ob w, ht, hf, t, hc => by
    rw [Query_Tidy_mk] at ht
    rw [Query_Fits_mk] at hf
    rw [Query_cst_mk, Query_reread_mk]
    rw [Query_reread_mk, Query_check_mk] at hc
    obtain ⟨u1, h1, hc⟩ := bind_ok hc
    obtain ⟨u2, h2, hc⟩ := bind_ok hc
    have hb := cv_body b ht.1 hf.1 t hc
    rw [hb.2]
    exact query_tail hb.1 (cv_ords ob ht.2.2.2.1 hf.2.1 h2) (cv_withs w ht.2.2.2.2 hf.2.2 h1) ht.2.1 ht.2.2.1
theorem cv_body : ∀ (b : QBody), b.Tidy → b.Fits → ∀ t, b.reread.check = .ok t →
    b.cst.conv = .ok (some (.mk b.reread none none [] [])) ∧ b.isSet = false
  | .select items fr wh gb hv d wins, ht, hf, t, hc => by
    refine ⟨?_, rfl⟩
    rw [QBody_Tidy_select] at ht
    rw [QBody_Fits_select] at hf
    rw [QBody_cst_select, CQT_conv_spec]
    rw [QBody_reread_select] at hc ⊢
    have hq : (Query.mk (.select (Expr.rereads items) (Rel.rereadOpt fr) (Expr.rereadOpt wh) (GroupBy.rereadOpt gb) (Expr.rereadOpt hv) d (Win.rereadNamed wins)) none none [] []).check = .ok t := hc
    rw [QBody_check_select] at hc
    obtain ⟨a1, h1, hc⟩ := bind_ok hc
    obtain ⟨a2, h2, hc⟩ := bind_ok hc
    obtain ⟨a3, h3, hc⟩ := bind_ok hc
    obtain ⟨a4, h4, hc⟩ := bind_ok hc
    obtain ⟨a5, h5, hc⟩ := bind_ok hc
    obtain ⟨a6, h6, hc⟩ := bind_ok hc
    obtain ⟨gs, hg, hg2⟩ := cv_gopt gb ht.2.2.2.2.1 hf.2.2.2.1 h4
    obtain ⟨rs, hr, hr2⟩ := cv_ropt fr ht.2.2.1 hf.2.1 h2
    have hw := cv_wnamed wins ht.2.2.2.2.2.2 hf.2.2.2.2.2.1 h6
    have hd : dictOf (Win.rereadNamed wins) = Win.rereadNamed wins := dictOf_nodup (by rw [rereadNamed_fst]; exact hf.2.2.2.2.2.2)
    refine ebind (cv_items items ht.2.1 hf.1 a1 h1) (ebind hr (ebind hr2 (ebind (quant_distinct d) (ebind (drop_ok (cv_opt wh ht.2.2.2.1 hf.2.2.1 h3))
      (ebind (drop_ok (cv_opt hv ht.2.2.2.2.2.1 hf.2.2.2.2.1 h5)) (ebind hg (ebind (quant_group gb) (ebind hw (ebind ?_ rfl)))))))))
    rw [hg2, hd]
    exact query_build hq
  | .set _ _ _ _, _, hf, _, _ => hf.elim
  | .table tb, ht, hf, t, hc => by
    refine ⟨?_, rfl⟩
    rw [QBody_Tidy_table] at ht
    rw [QBody_Fits_table] at hf
    rw [QBody_cst_table, CQT_conv_table]
    rw [QBody_reread_table] at hc ⊢
    have hq : (Query.mk (.table (forgetTable tb)) none none [] []).check = .ok t := hc
    rw [QBody_check_table] at hc
    obtain ⟨a1, h1, hc⟩ := bind_ok hc
    obtain ⟨ns, hns, htb⟩ := bind_ok (table_conv ht hf h1)
    exact ebind hns (ebind htb (ebind (query_build hq) rfl))
  | .values es, ht, hf, t, hc => by
    refine ⟨?_, rfl⟩
    rw [QBody_Tidy_values] at ht
    rw [QBody_Fits_values] at hf
    rw [QBody_cst_values, CQT_conv_values]
    rw [QBody_reread_values] at hc ⊢
    have hq : (Query.mk (.values (Expr.rereads es)) none none [] []).check = .ok t := hc
    rw [QBody_check_values] at hc
    obtain ⟨a1, h1, hc⟩ := bind_ok hc
    exact ebind (cv_exprs es ht.2 hf a1 h1) (ebind (query_build hq) rfl)
theorem cv_wnamed : ∀ (ws : List (Str × Win)), Win.TidyNamed ws → Win.FitsNamed ws → ∀ {u}, Win.checkNamed (Win.rereadNamed ws) = .ok u →
    CWinDef.convs (Win.cstNamed ws) = .ok (Win.rereadNamed ws)
  | [], _, _, _, _ => rfl
  | (n, w) :: ws, ht, hf, u, hc => by
    rw [Win_TidyNamed_cons] at ht
    rw [Win_FitsNamed_cons] at hf
    rw [Win_cstNamed_cons, CWinDef_convs_cons]
    rw [Win_rereadNamed_cons, Win_checkNamed_cons] at hc
    obtain ⟨a, ha, hc⟩ := bind_ok hc
    exact ebind (ident_word n) (ebind (cv_win w ht.2.1 hf.2.1 ha) (ebind (cv_wnamed ws ht.2.2 hf.2.2 hc) rfl))
theorem cv_named : ∀ (n : Named), n.Tidy → n.Fits → ∀ {u}, n.reread.check = .ok u → n.cst.conv = .ok (some (.aliased n.reread))
  | .mk r a cols, ht, hf, u, hc => by
    rw [Named_Tidy_mk] at ht
    rw [Named_Fits_mk] at hf
    rw [Named_cst_mk, CR_conv_alias]
    rw [Named_reread_mk] at hc ⊢
    have hc2 : (Rel.aliased (.mk r.reread a cols)).check = .ok u := hc
    rw [Named_check_mk] at hc
    exact ebind (cv_rel r ht.1 hf.1 hc) (ebind (ident_name ht.2.1) (ebind (idents_words cols) (ebind rfl (ebind (rel_build hc2) rfl))))
theorem cv_withs : ∀ (ns : List Named), Named.Tidys ns → Named.Fitss ns → ∀ {u}, Named.checks (Named.rereads ns) = .ok u →
    CNamed.convs (Named.csts ns) = .ok (Named.rereads ns)
  | [], _, _, _, _ => rfl
  | .mk r a cols :: ns, ht, hf, u, hc => by
    rw [Named_Tidys_cons, Named_TidyWith_mk] at ht
    rw [Named_Fitss_cons, Named_FitsWith_mk] at hf
    rw [Named_csts_cons, Named_cstWith_mk, CNamed_convs_cons]
    rw [Named_rereads_cons, Named_reread_mk, Named_checks_cons, Named_check_mk] at hc
    rw [Named_rereads_cons, Named_reread_mk]
    obtain ⟨x, hx, hc9⟩ := bind_ok hc
    have hr := cv_rel r ht.1.1 hf.1 hx
    obtain ⟨hq, ha, hcols⟩ := ht.1.2
    obtain ⟨q, rfl⟩ := qcst_eq hq
    rw [Rel_cst_query, CR_conv_sub] at hr
    obtain ⟨q', hq', hr⟩ := bind_ok hr
    subst hcols
    cases q' with
    | none => exact nomatch Except.ok.inj hr
    | some q' =>
      have h3 : Rel.query q' = (Rel.query q).reread := Option.some.inj (Except.ok.inj hr)
      rw [← h3]
      exact ebind rfl (ebind hq' (ebind rfl (ebind (ident_name ha) (ebind (cv_withs ns ht.2 hf.2 hc9) rfl))))
theorem cv_ropt : ∀ (r : Option Rel), Rel.TidyOpt r → Rel.FitsOpt r → ∀ {u}, Rel.checkOpt (Rel.rereadOpt r) = .ok u →
    ∃ rs, CR.convs (Rel.cstOpt r) = .ok rs ∧ fromOf rs = .ok (Rel.rereadOpt r)
  | none, _, _, _, _ => ⟨[], rfl, rfl⟩
  | some r, ht, hf, u, hc => by
    rw [Rel_TidyOpt_some] at ht
    rw [Rel_FitsOpt_some] at hf
    rw [Rel_cstOpt_some, CR_convs_cons]
    rw [Rel_rereadOpt_some, Rel_checkOpt_some] at hc
    exact ⟨[some r.reread], ebind (cv_rel r ht hf hc) rfl, rfl⟩
theorem cv_rel : ∀ (r : Rel), r.Tidy → r.Fits → ∀ {u}, r.reread.check = .ok u → r.cst.conv = .ok (some r.reread)
  | .table tb, ht, hf, u, hc => by
    rw [Rel_Tidy_table] at ht
    rw [Rel_Fits_table] at hf
    rw [Rel_cst_table, CR_conv_table]
    obtain ⟨ns, hns, htb⟩ := bind_ok (table_conv ht hf hc)
    exact ebind hns (ebind htb rfl)
  | .query q, ht, hf, u, hc => by
    rw [Rel_Tidy_query] at ht
    rw [Rel_Fits_query] at hf
    rw [Rel_cst_query, CR_conv_sub]
    rw [Rel_reread_query, Rel_check_query] at hc
    obtain ⟨a, ha, -⟩ := bind_ok hc
    exact ebind (cv_query q ht hf a ha) rfl
  | .aliased n, ht, hf, u, hc => by
    rw [Rel_Tidy_aliased] at ht
    rw [Rel_Fits_aliased] at hf
    rw [Rel_cst_aliased]
    exact cv_named n ht hf hc
  | .join l r k nat cr, ht, hf, u, hc => by
    rw [Rel_Tidy_join] at ht
    rw [Rel_Fits_join] at hf
    rw [Rel_cst_join]
    rw [Rel_reread_join] at hc ⊢
    have hc2 := hc
    rw [Rel_check_join] at hc2
    obtain ⟨a1, h1, hc2⟩ := bind_ok hc2
    obtain ⟨a2, h2, hc2⟩ := bind_ok hc2
    obtain ⟨a3, h3, hc2⟩ := bind_ok hc2
    have il := cv_rel l ht.1 hf.1 h1
    have ir := cv_rel r ht.2.1 hf.2.1 h2
    have ic := cv_copt cr ht.2.2.2 hf.2.2.1 h3
    have hk : k ≠ .cross → (joinTypeCst k).conv = k := by
      intro h
      cases k
      case cross => exact absurd rfl h
      all_goals rfl
    cases cr with
    | some c =>
      rw [Crit_cstOpt_some, Crit_rereadOpt_some] at *
      have hj := ht.2.2.1
      rcases hj with ⟨-, -, h⟩ | ⟨hk', hn⟩
      · exact nomatch h
      replace hn : nat = false := hn
      subst hn
      refine (CR_conv_join ..).trans (ebind il (ebind ir (ebind (ic c.reread rfl c.cst rfl) (ebind rfl (ebind rfl (ebind ?_ rfl))))))
      rw [hk hk']
      exact rel_build hc
    | none =>
      rcases ht.2.2.1 with ⟨rfl, rfl, -⟩ | ⟨hk', hn⟩
      · exact (CR_conv_cross ..).trans (ebind il (ebind ir (ebind rfl (ebind rfl (ebind (rel_build hc) rfl)))))
      · replace hn : nat = true := hn
        subst hn
        refine (CR_conv_natural ..).trans (ebind il (ebind ir (ebind rfl (ebind rfl (ebind ?_ rfl)))))
        rw [hk hk']
        exact rel_build hc
  | .unnest as ord, ht, hf, u, hc => by
    rw [Rel_Tidy_unnest] at ht
    rw [Rel_Fits_unnest] at hf
    rw [Rel_cst_unnest, CR_conv_unnest]
    rw [Rel_reread_unnest] at hc ⊢
    have hc2 := hc
    rw [Rel_check_unnest] at hc2
    obtain ⟨a, ha, -⟩ := bind_ok hc2
    exact ebind (cv_exprs as ht.1 hf.1 a ha) (ebind (rel_build hc) rfl)
  | .lateral q, ht, hf, u, hc => by
    rw [Rel_Tidy_lateral] at ht
    rw [Rel_Fits_lateral] at hf
    rw [Rel_cst_lateral, CR_conv_lateral]
    rw [Rel_reread_lateral] at hc ⊢
    have hc2 := hc
    rw [Rel_check_lateral] at hc2
    obtain ⟨a, ha, -⟩ := bind_ok hc2
    exact ebind (cv_query q ht hf a ha) (ebind rfl (ebind (rel_build hc) rfl))
  | .sample r k p, ht, hf, u, hc => by
    rw [Rel_Tidy_sample] at ht
    rw [Rel_Fits_sample] at hf
    rw [Rel_cst_sample, CR_conv_sample, wrapR_conv]
    rw [Rel_reread_sample] at hc ⊢
    have hc2 := hc
    rw [Rel_check_sample] at hc2
    obtain ⟨a1, h1, hc2⟩ := bind_ok hc2
    obtain ⟨a2, h2, -⟩ := bind_ok hc2
    exact ebind (cv_rel r ht.1 hf.1 h1) (ebind (a := k) (by cases k <;> rfl) (ebind (kid ht.2 h2 (cv_expr p false ht.2 hf.2.1 false nofun))
      (ebind rfl (ebind (rel_build hc) rfl))))
theorem cv_copt : ∀ (c : Option Crit), Crit.TidyOpt c → Crit.FitsOpt c → ∀ {u}, Crit.checkOpt (Crit.rereadOpt c) = .ok u →
    ∀ y, Crit.rereadOpt c = some y → ∀ x, Crit.cstOpt c = some x → x.conv = .ok y
  | none, _, _, _, _, _, h, _, _ => nomatch h
  | some (.using cols), ht, hf, u, hc, y, hy, x, hx => by
    cases hy; cases hx
    exact (CCrit_conv_using ..).trans (ebind (idents_words cols) rfl)
  | some (.on e), ht, hf, u, hc, y, hy, x, hx => by
    rw [Crit_TidyOpt_some, Crit_Tidy_on] at ht
    rw [Crit_FitsOpt_some, Crit_Fits_on] at hf
    rw [Crit_rereadOpt_some, Crit_reread_on, Crit_checkOpt_some, Crit_check_on] at hc
    obtain ⟨a, ha, -⟩ := bind_ok hc
    cases hy; cases hx
    exact (CCrit_conv_on ..).trans (ebind (kid ht ha (cv_expr e false ht hf false nofun)) rfl)
end

end Treeno
