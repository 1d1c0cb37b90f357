import Verif.Lemmas.Respell
import Verif.Lemmas.SpelledEqs
/-!
# The spelled words of a parse tree with other tokens
-/
set_option linter.unusedSimpArgs false
namespace Treeno
variable {σ : Tok → Tok}

theorem toList_map (o : Option Tok) : (o.map σ).toList = o.toList.map σ := by cases o <;> rfl
theorem sr_limit (l : CLimit) : (l.respell σ).spelled = l.spelled.map σ := by cases l <;> rfl

mutual
theorem sr_CTy : ∀ c : CTy, (c.respell σ).spelled = c.spelled.map σ
  | .row x0 => by
    simp only [CTy_respell_row, CTy_spelled_row, List.map_append, toList_map, List.map_cons, List.map_nil, sr_CFields x0]
  | .interval x0 x1 => by
    simp only [CTy_respell_interval, CTy_spelled_interval, List.map_append, toList_map, List.map_cons, List.map_nil]
  | .datetime x0 x1 x2 => by
    simp only [CTy_respell_datetime, CTy_spelled_datetime, List.map_append, toList_map, List.map_cons, List.map_nil, sr_CTParamOpt x1]
  | .doublePrecision => by
    simp only [CTy_respell_doublePrecision, CTy_spelled_doublePrecision, List.map_append, toList_map, List.map_cons, List.map_nil]
  | .legacyArray x0 => by
    simp only [CTy_respell_legacyArray, CTy_spelled_legacyArray, List.map_append, toList_map, List.map_cons, List.map_nil, sr_CTy x0]
  | .legacyMap x0 x1 => by
    simp only [CTy_respell_legacyMap, CTy_spelled_legacyMap, List.map_append, toList_map, List.map_cons, List.map_nil, sr_CTy x0, sr_CTy x1]
  | .arrayOf x0 x1 => by
    simp only [CTy_respell_arrayOf, CTy_spelled_arrayOf, List.map_append, toList_map, List.map_cons, List.map_nil, sr_CTy x0]
  | .generic x0 x1 => by
    simp only [CTy_respell_generic, CTy_spelled_generic, List.map_append, toList_map, List.map_cons, List.map_nil, sr_CTParams x1]
theorem sr_CField : ∀ c : CField, (c.respell σ).spelled = c.spelled.map σ
  | .mk x0 x1 => by
    simp only [CField_respell_mk, CField_spelled_mk, List.map_append, toList_map, List.map_cons, List.map_nil, sr_CTy x1]
theorem sr_CTParam : ∀ c : CTParam, (c.respell σ).spelled = c.spelled.map σ
  | .int x0 => by
    simp only [CTParam_respell_int, CTParam_spelled_int, List.map_append, toList_map, List.map_cons, List.map_nil]
  | .ty x0 => by
    simp only [CTParam_respell_ty, CTParam_spelled_ty, List.map_append, toList_map, List.map_cons, List.map_nil, sr_CTy x0]
theorem sr_CFields : ∀ c : List CField, CField.spelleds (c.map (CField.respell σ)) = (CField.spelleds c).map σ
  | [] => rfl
  | x :: xs => by simp only [List.map_cons, CField_spelleds_cons, List.map_append, sr_CField x, sr_CFields xs]
theorem sr_CTParamOpt : ∀ c : Option CTParam, CTParam.spelledOpt (c.map (CTParam.respell σ)) = (CTParam.spelledOpt c).map σ
  | none => rfl
  | some x => sr_CTParam x
theorem sr_CTParams : ∀ c : List CTParam, CTParam.spelleds (c.map (CTParam.respell σ)) = (CTParam.spelleds c).map σ
  | [] => rfl
  | x :: xs => by simp only [List.map_cons, CTParam_spelleds_cons, List.map_append, sr_CTParam x, sr_CTParams xs]
end

mutual
theorem sr_CE : ∀ c : CE, (c.respell σ).spelled = c.spelled.map σ
  | .or_ x0 x1 => by
    simp only [CE_respell_or_, CE_spelled_or_, List.map_append, toList_map, List.map_cons, List.map_nil, sr_CE x0, sr_CE x1]
  | .and_ x0 x1 => by
    simp only [CE_respell_and_, CE_spelled_and_, List.map_append, toList_map, List.map_cons, List.map_nil, sr_CE x0, sr_CE x1]
  | .not_ x0 => by
    simp only [CE_respell_not_, CE_spelled_not_, List.map_append, toList_map, List.map_cons, List.map_nil, sr_CE x0]
  | .cmp x0 x1 x2 => by
    simp only [CE_respell_cmp, CE_spelled_cmp, List.map_append, toList_map, List.map_cons, List.map_nil, sr_CE x1, sr_CE x2]
  | .between x0 x1 x2 x3 => by
    simp only [CE_respell_between, CE_spelled_between, List.map_append, toList_map, List.map_cons, List.map_nil, sr_CE x1, sr_CE x2, sr_CE x3]
  | .inList x0 x1 x2 => by
    simp only [CE_respell_inList, CE_spelled_inList, List.map_append, toList_map, List.map_cons, List.map_nil, sr_CE x1, sr_CEs x2]
  | .inSub x0 x1 x2 => by
    simp only [CE_respell_inSub, CE_spelled_inSub, List.map_append, toList_map, List.map_cons, List.map_nil, sr_CE x1, sr_CQ x2]
  | .like x0 x1 x2 x3 => by
    simp only [CE_respell_like, CE_spelled_like, List.map_append, toList_map, List.map_cons, List.map_nil, sr_CE x1, sr_CE x2, sr_CEOpt x3]
  | .isNull x0 x1 => by
    simp only [CE_respell_isNull, CE_spelled_isNull, List.map_append, toList_map, List.map_cons, List.map_nil, sr_CE x1]
  | .distinct x0 x1 x2 => by
    simp only [CE_respell_distinct, CE_spelled_distinct, List.map_append, toList_map, List.map_cons, List.map_nil, sr_CE x1, sr_CE x2]
  | .quantified x0 x1 x2 x3 => by
    simp only [CE_respell_quantified, CE_spelled_quantified, List.map_append, toList_map, List.map_cons, List.map_nil, sr_CE x2, sr_CQ x3]
  | .concat x0 x1 => by
    simp only [CE_respell_concat, CE_spelled_concat, List.map_append, toList_map, List.map_cons, List.map_nil, sr_CE x0, sr_CE x1]
  | .arith x0 x1 x2 => by
    simp only [CE_respell_arith, CE_spelled_arith, List.map_append, toList_map, List.map_cons, List.map_nil, sr_CE x1, sr_CE x2]
  | .sign x0 x1 => by
    simp only [CE_respell_sign, CE_spelled_sign, List.map_append, toList_map, List.map_cons, List.map_nil, sr_CE x1]
  | .atZone x0 x1 => by
    simp only [CE_respell_atZone, CE_spelled_atZone, List.map_append, toList_map, List.map_cons, List.map_nil, sr_CE x0, sr_CE x1]
  | .null => by
    simp only [CE_respell_null, CE_spelled_null, List.map_append, toList_map, List.map_cons, List.map_nil]
  | .interval x0 x1 x2 x3 => by
    simp only [CE_respell_interval, CE_spelled_interval, List.map_append, toList_map, List.map_cons, List.map_nil]
  | .typeCtor x0 x1 => by
    simp only [CE_respell_typeCtor, CE_spelled_typeCtor, List.map_append, toList_map, List.map_cons, List.map_nil]
  | .doublePrecision x0 => by
    simp only [CE_respell_doublePrecision, CE_spelled_doublePrecision, List.map_append, toList_map, List.map_cons, List.map_nil]
  | .num x0 x1 => by
    simp only [CE_respell_num, CE_spelled_num, List.map_append, toList_map, List.map_cons, List.map_nil]
  | .bool x0 => by
    simp only [CE_respell_bool, CE_spelled_bool, List.map_append, toList_map, List.map_cons, List.map_nil]
  | .str x0 => by
    simp only [CE_respell_str, CE_spelled_str, List.map_append, toList_map, List.map_cons, List.map_nil]
  | .binary x0 => by
    simp only [CE_respell_binary, CE_spelled_binary, List.map_append, toList_map, List.map_cons, List.map_nil]
  | .param => by
    simp only [CE_respell_param, CE_spelled_param, List.map_append, toList_map, List.map_cons, List.map_nil]
  | .row x0 => by
    simp only [CE_respell_row, CE_spelled_row, List.map_append, toList_map, List.map_cons, List.map_nil, sr_CEs x0]
  | .rowKw x0 => by
    simp only [CE_respell_rowKw, CE_spelled_rowKw, List.map_append, toList_map, List.map_cons, List.map_nil, sr_CEs x0]
  | .listagg x0 x1 x2 x3 x4 => by
    simp only [CE_respell_listagg, CE_spelled_listagg, List.map_append, toList_map, List.map_cons, List.map_nil, sr_CE x1, sr_CSorts x4]
  | .callStar x0 x1 x2 x3 => by
    simp only [CE_respell_callStar, CE_spelled_callStar, List.map_append, toList_map, List.map_cons, List.map_nil, sr_CEOpt x2, sr_CWinOpt x3]
  | .call x0 x1 x2 x3 x4 x5 x6 => by
    simp only [CE_respell_call, CE_spelled_call, List.map_append, toList_map, List.map_cons, List.map_nil, sr_CEs x2, sr_CSorts x3, sr_CEOpt x4, sr_CWinOpt x6]
  | .lam x0 x1 x2 => by
    simp only [CE_respell_lam, CE_spelled_lam, List.map_append, toList_map, List.map_cons, List.map_nil, sr_CE x2]
  | .sub x0 => by
    simp only [CE_respell_sub, CE_spelled_sub, List.map_append, toList_map, List.map_cons, List.map_nil, sr_CQ x0]
  | .case x0 x1 x2 => by
    simp only [CE_respell_case, CE_spelled_case, List.map_append, toList_map, List.map_cons, List.map_nil, sr_CEOpt x0, sr_CWhens x1, sr_CEOpt x2]
  | .cast x0 x1 x2 x3 => by
    simp only [CE_respell_cast, CE_spelled_cast, List.map_append, toList_map, List.map_cons, List.map_nil, sr_CE x1, sr_CTy x2]
  | .array x0 => by
    simp only [CE_respell_array, CE_spelled_array, List.map_append, toList_map, List.map_cons, List.map_nil, sr_CEs x0]
  | .subscript x0 x1 => by
    simp only [CE_respell_subscript, CE_spelled_subscript, List.map_append, toList_map, List.map_cons, List.map_nil, sr_CE x0, sr_CE x1]
  | .col x0 => by
    simp only [CE_respell_col, CE_spelled_col, List.map_append, toList_map, List.map_cons, List.map_nil]
  | .deref x0 x1 => by
    simp only [CE_respell_deref, CE_spelled_deref, List.map_append, toList_map, List.map_cons, List.map_nil, sr_CE x0]
  | .dateTime x0 x1 => by
    simp only [CE_respell_dateTime, CE_spelled_dateTime, List.map_append, toList_map, List.map_cons, List.map_nil]
  | .session x0 => by
    simp only [CE_respell_session, CE_spelled_session, List.map_append, toList_map, List.map_cons, List.map_nil]
  | .normalize x0 x1 => by
    simp only [CE_respell_normalize, CE_spelled_normalize, List.map_append, toList_map, List.map_cons, List.map_nil, sr_CE x0]
  | .paren x0 => by
    simp only [CE_respell_paren, CE_spelled_paren, List.map_append, toList_map, List.map_cons, List.map_nil, sr_CE x0]
  | .exists_ x0 => by
    simp only [CE_respell_exists_, CE_spelled_exists_, List.map_append, toList_map, List.map_cons, List.map_nil, sr_CQ x0]
  | .position x0 x1 => by
    simp only [CE_respell_position, CE_spelled_position, List.map_append, toList_map, List.map_cons, List.map_nil, sr_CE x0, sr_CE x1]
  | .substring x0 x1 x2 => by
    simp only [CE_respell_substring, CE_spelled_substring, List.map_append, toList_map, List.map_cons, List.map_nil, sr_CE x0, sr_CE x1, sr_CEOpt x2]
  | .extract x0 x1 => by
    simp only [CE_respell_extract, CE_spelled_extract, List.map_append, toList_map, List.map_cons, List.map_nil, sr_CE x1]
  | .trimFrom x0 x1 x2 => by
    simp only [CE_respell_trimFrom, CE_spelled_trimFrom, List.map_append, toList_map, List.map_cons, List.map_nil, sr_CEOpt x1, sr_CE x2]
  | .trim x0 x1 => by
    simp only [CE_respell_trim, CE_spelled_trim, List.map_append, toList_map, List.map_cons, List.map_nil, sr_CE x0, sr_CEOpt x1]
  | .grouping x0 => by
    simp only [CE_respell_grouping, CE_spelled_grouping, List.map_append, toList_map, List.map_cons, List.map_nil]
theorem sr_CWhen : ∀ c : CWhen, (c.respell σ).spelled = c.spelled.map σ
  | .mk x0 x1 => by
    simp only [CWhen_respell_mk, CWhen_spelled_mk, List.map_append, toList_map, List.map_cons, List.map_nil, sr_CE x0, sr_CE x1]
theorem sr_CSort : ∀ c : CSort, (c.respell σ).spelled = c.spelled.map σ
  | .mk x0 x1 x2 => by
    simp only [CSort_respell_mk, CSort_spelled_mk, List.map_append, toList_map, List.map_cons, List.map_nil, sr_CE x0]
theorem sr_CBound : ∀ c : CBound, (c.respell σ).spelled = c.spelled.map σ
  | .unbounded x0 => by
    simp only [CBound_respell_unbounded, CBound_spelled_unbounded, List.map_append, toList_map, List.map_cons, List.map_nil]
  | .current => by
    simp only [CBound_respell_current, CBound_spelled_current, List.map_append, toList_map, List.map_cons, List.map_nil]
  | .bounded x0 x1 => by
    simp only [CBound_respell_bounded, CBound_spelled_bounded, List.map_append, toList_map, List.map_cons, List.map_nil, sr_CE x0]
theorem sr_CFrame : ∀ c : CFrame, (c.respell σ).spelled = c.spelled.map σ
  | .none => by
    simp only [CFrame_respell_none, CFrame_spelled_none, List.map_append, toList_map, List.map_cons, List.map_nil]
  | .from_ x0 x1 => by
    simp only [CFrame_respell_from_, CFrame_spelled_from_, List.map_append, toList_map, List.map_cons, List.map_nil, sr_CBound x1]
  | .between x0 x1 x2 => by
    simp only [CFrame_respell_between, CFrame_spelled_between, List.map_append, toList_map, List.map_cons, List.map_nil, sr_CBound x1, sr_CBound x2]
theorem sr_CWin : ∀ c : CWin, (c.respell σ).spelled = c.spelled.map σ
  | .ref x0 => by
    simp only [CWin_respell_ref, CWin_spelled_ref, List.map_append, toList_map, List.map_cons, List.map_nil]
  | .spec x0 x1 x2 x3 => by
    simp only [CWin_respell_spec, CWin_spelled_spec, List.map_append, toList_map, List.map_cons, List.map_nil, sr_CEs x1, sr_CSorts x2, sr_CFrame x3]
theorem sr_CSet : ∀ c : CSet, (c.respell σ).spelled = c.spelled.map σ
  | .paren x0 => by
    simp only [CSet_respell_paren, CSet_spelled_paren, List.map_append, toList_map, List.map_cons, List.map_nil, sr_CEs x0]
  | .expr x0 => by
    simp only [CSet_respell_expr, CSet_spelled_expr, List.map_append, toList_map, List.map_cons, List.map_nil, sr_CE x0]
theorem sr_CGrp : ∀ c : CGrp, (c.respell σ).spelled = c.spelled.map σ
  | .single x0 => by
    simp only [CGrp_respell_single, CGrp_spelled_single, List.map_append, toList_map, List.map_cons, List.map_nil, sr_CSet x0]
  | .rollup x0 => by
    simp only [CGrp_respell_rollup, CGrp_spelled_rollup, List.map_append, toList_map, List.map_cons, List.map_nil, sr_CEs x0]
  | .cube x0 => by
    simp only [CGrp_respell_cube, CGrp_spelled_cube, List.map_append, toList_map, List.map_cons, List.map_nil, sr_CEs x0]
  | .sets x0 => by
    simp only [CGrp_respell_sets, CGrp_spelled_sets, List.map_append, toList_map, List.map_cons, List.map_nil, sr_CSets x0]
theorem sr_CItem : ∀ c : CItem, (c.respell σ).spelled = c.spelled.map σ
  | .expr x0 x1 x2 => by
    simp only [CItem_respell_expr, CItem_spelled_expr, List.map_append, toList_map, List.map_cons, List.map_nil, sr_CE x0]
  | .allOf x0 x1 => by
    simp only [CItem_respell_allOf, CItem_spelled_allOf, List.map_append, toList_map, List.map_cons, List.map_nil, sr_CE x0]
  | .all => by
    simp only [CItem_respell_all, CItem_spelled_all, List.map_append, toList_map, List.map_cons, List.map_nil]
theorem sr_CWinDef : ∀ c : CWinDef, (c.respell σ).spelled = c.spelled.map σ
  | .mk x0 x1 => by
    simp only [CWinDef_respell_mk, CWinDef_spelled_mk, List.map_append, toList_map, List.map_cons, List.map_nil, sr_CWin x1]
theorem sr_CQ : ∀ c : CQ, (c.respell σ).spelled = c.spelled.map σ
  | .mk x0 x1 x2 => by
    simp only [CQ_respell_mk, CQ_spelled_mk, List.map_append, toList_map, List.map_cons, List.map_nil, sr_CNameds x1, sr_CQN x2]
theorem sr_CNamed : ∀ c : CNamed, (c.respell σ).spelled = c.spelled.map σ
  | .mk x0 x1 x2 => by
    simp only [CNamed_respell_mk, CNamed_spelled_mk, List.map_append, toList_map, List.map_cons, List.map_nil, sr_CQ x2]
theorem sr_CQN : ∀ c : CQN, (c.respell σ).spelled = c.spelled.map σ
  | .mk x0 x1 x2 x3 => by
    simp only [CQN_respell_mk, CQN_spelled_mk, List.map_append, toList_map, List.map_cons, List.map_nil, sr_CQT x0, sr_CSorts x1, sr_limit x3]
theorem sr_CQT : ∀ c : CQT, (c.respell σ).spelled = c.spelled.map σ
  | .set x0 x1 x2 x3 => by
    simp only [CQT_respell_set, CQT_spelled_set, List.map_append, toList_map, List.map_cons, List.map_nil, sr_CQT x2, sr_CQT x3]
  | .spec x0 x1 x2 x3 x4 x5 x6 x7 => by
    simp only [CQT_respell_spec, CQT_spelled_spec, List.map_append, toList_map, List.map_cons, List.map_nil, sr_CItems x1, sr_CRs x2, sr_CEOpt x3, sr_CGrps x5, sr_CEOpt x6, sr_CWinDefs x7]
  | .table x0 => by
    simp only [CQT_respell_table, CQT_spelled_table, List.map_append, toList_map, List.map_cons, List.map_nil]
  | .values x0 => by
    simp only [CQT_respell_values, CQT_spelled_values, List.map_append, toList_map, List.map_cons, List.map_nil, sr_CEs x0]
  | .sub x0 => by
    simp only [CQT_respell_sub, CQT_spelled_sub, List.map_append, toList_map, List.map_cons, List.map_nil, sr_CQN x0]
theorem sr_CR : ∀ c : CR, (c.respell σ).spelled = c.spelled.map σ
  | .cross x0 x1 => by
    simp only [CR_respell_cross, CR_spelled_cross, List.map_append, toList_map, List.map_cons, List.map_nil, sr_CR x0, sr_CR x1]
  | .join x0 x1 x2 x3 => by
    simp only [CR_respell_join, CR_spelled_join, List.map_append, toList_map, List.map_cons, List.map_nil, sr_CR x0, sr_CR x2, sr_CCrit x3]
  | .natural x0 x1 x2 => by
    simp only [CR_respell_natural, CR_spelled_natural, List.map_append, toList_map, List.map_cons, List.map_nil, sr_CR x0, sr_CR x2]
  | .sample x0 x1 x2 => by
    simp only [CR_respell_sample, CR_spelled_sample, List.map_append, toList_map, List.map_cons, List.map_nil, sr_CR x0, sr_CE x2]
  | .alias x0 x1 x2 x3 => by
    simp only [CR_respell_alias, CR_spelled_alias, List.map_append, toList_map, List.map_cons, List.map_nil, sr_CR x0]
  | .table x0 => by
    simp only [CR_respell_table, CR_spelled_table, List.map_append, toList_map, List.map_cons, List.map_nil]
  | .sub x0 => by
    simp only [CR_respell_sub, CR_spelled_sub, List.map_append, toList_map, List.map_cons, List.map_nil, sr_CQ x0]
  | .unnest x0 x1 => by
    simp only [CR_respell_unnest, CR_spelled_unnest, List.map_append, toList_map, List.map_cons, List.map_nil, sr_CEs x0]
  | .lateral x0 => by
    simp only [CR_respell_lateral, CR_spelled_lateral, List.map_append, toList_map, List.map_cons, List.map_nil, sr_CQ x0]
  | .paren x0 => by
    simp only [CR_respell_paren, CR_spelled_paren, List.map_append, toList_map, List.map_cons, List.map_nil, sr_CR x0]
theorem sr_CCrit : ∀ c : CCrit, (c.respell σ).spelled = c.spelled.map σ
  | .on x0 => by
    simp only [CCrit_respell_on, CCrit_spelled_on, List.map_append, toList_map, List.map_cons, List.map_nil, sr_CE x0]
  | .using x0 => by
    simp only [CCrit_respell_using, CCrit_spelled_using, List.map_append, toList_map, List.map_cons, List.map_nil]
theorem sr_CEOpt : ∀ c : Option CE, CE.spelledOpt (c.map (CE.respell σ)) = (CE.spelledOpt c).map σ
  | none => rfl
  | some x => sr_CE x
theorem sr_CEs : ∀ c : List CE, CE.spelleds (c.map (CE.respell σ)) = (CE.spelleds c).map σ
  | [] => rfl
  | x :: xs => by simp only [List.map_cons, CE_spelleds_cons, List.map_append, sr_CE x, sr_CEs xs]
theorem sr_CGrps : ∀ c : List CGrp, CGrp.spelleds (c.map (CGrp.respell σ)) = (CGrp.spelleds c).map σ
  | [] => rfl
  | x :: xs => by simp only [List.map_cons, CGrp_spelleds_cons, List.map_append, sr_CGrp x, sr_CGrps xs]
theorem sr_CItems : ∀ c : List CItem, CItem.spelleds (c.map (CItem.respell σ)) = (CItem.spelleds c).map σ
  | [] => rfl
  | x :: xs => by simp only [List.map_cons, CItem_spelleds_cons, List.map_append, sr_CItem x, sr_CItems xs]
theorem sr_CNameds : ∀ c : List CNamed, CNamed.spelleds (c.map (CNamed.respell σ)) = (CNamed.spelleds c).map σ
  | [] => rfl
  | x :: xs => by simp only [List.map_cons, CNamed_spelleds_cons, List.map_append, sr_CNamed x, sr_CNameds xs]
theorem sr_CRs : ∀ c : List CR, CR.spelleds (c.map (CR.respell σ)) = (CR.spelleds c).map σ
  | [] => rfl
  | x :: xs => by simp only [List.map_cons, CR_spelleds_cons, List.map_append, sr_CR x, sr_CRs xs]
theorem sr_CSets : ∀ c : List CSet, CSet.spelleds (c.map (CSet.respell σ)) = (CSet.spelleds c).map σ
  | [] => rfl
  | x :: xs => by simp only [List.map_cons, CSet_spelleds_cons, List.map_append, sr_CSet x, sr_CSets xs]
theorem sr_CSorts : ∀ c : List CSort, CSort.spelleds (c.map (CSort.respell σ)) = (CSort.spelleds c).map σ
  | [] => rfl
  | x :: xs => by simp only [List.map_cons, CSort_spelleds_cons, List.map_append, sr_CSort x, sr_CSorts xs]
theorem sr_CWhens : ∀ c : List CWhen, CWhen.spelleds (c.map (CWhen.respell σ)) = (CWhen.spelleds c).map σ
  | [] => rfl
  | x :: xs => by simp only [List.map_cons, CWhen_spelleds_cons, List.map_append, sr_CWhen x, sr_CWhens xs]
theorem sr_CWinOpt : ∀ c : Option CWin, CWin.spelledOpt (c.map (CWin.respell σ)) = (CWin.spelledOpt c).map σ
  | none => rfl
  | some x => sr_CWin x
theorem sr_CWinDefs : ∀ c : List CWinDef, CWinDef.spelleds (c.map (CWinDef.respell σ)) = (CWinDef.spelleds c).map σ
  | [] => rfl
  | x :: xs => by simp only [List.map_cons, CWinDef_spelleds_cons, List.map_append, sr_CWinDef x, sr_CWinDefs xs]
end

end Treeno
