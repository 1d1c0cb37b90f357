import Verif.Lemmas.WfEqs
import Verif.Lemmas.SpelledEqs
import Verif.Spec.Grammar
import Verif.Spec.Casing
/-!
# The spelled words of a derivation are names, numbers and words that may also be names, or DISTINCT
-/
set_option linter.unusedVariables false
namespace Treeno
open Spec

/-- A token is no keyword whose case never matters. -/
def NameLike (t : Tok) : Prop := t.kind = .kw → structural (upper t.text) = false
def AllN (ts : List Tok) : Prop := ∀ t ∈ ts, NameLike t

theorem alln_append {a b : List Tok} (ha : AllN a) (hb : AllN b) : AllN (a ++ b) :=
  fun t ht => (List.mem_append.1 ht).elim (ha t) (hb t)
theorem nm_one {t : Tok} (h : NameLike t) : AllN [t] := fun u hu => by
  cases hu with
  | head => exact h
  | tail _ h => exact nomatch h
theorem nm_opt {p : Tok → Prop} {o : Option Tok} (h : Opt p o) (k : ∀ t, p t → NameLike t) : AllN o.toList := by
  cases o with
  | none => exact fun _ h => nomatch h
  | some t => exact nm_one (k t (h t rfl))
theorem nonReserved_structural {w : Str} (h : w ∈ nonReserved) : structural w = false := by
  have : nonReserved.contains w = true := List.contains_iff_mem.2 h
  simp only [structural, this, Bool.not_true, Bool.and_false, Bool.false_and]
theorem nm_ident {t : Tok} (h : Ident t) : NameLike t := fun hk => by
  rcases h with h | h | h | h | ⟨_, h⟩
  all_goals first
    | exact nonReserved_structural h
    | (rw [h] at hk; exact nomatch hk)
theorem nm_idents {ts : List Tok} (h : Idents ts) : AllN ts := fun t ht => nm_ident (h t ht)
theorem nm_kof {ks : List Str} (hks : ∀ k ∈ ks, structural k = false) {t : Tok} (h : Kof ks t) : NameLike t :=
  fun _ => hks _ h.2
theorem nm_k {k : Str} (hk : structural k = false) {t : Tok} (h : K k t) : NameLike t := fun _ => by rw [h.2]; exact hk
theorem nm_iv {t : Tok} (h : IvField t) : NameLike t := by
  rcases h with h | h | h | h | h | h <;> exact nm_k (by decide) h
theorem nm_quant {t : Tok} (h : Quant t) : NameLike t := nm_kof (by decide) h
theorem nm_kind {t : Tok} {k : Kind} (h : t.kind = k) (hk : k ≠ .kw) : NameLike t := fun h' => absurd (h.symm.trans h') hk
theorem nm_limit {l : CLimit} (h : l.Wf) : AllN l.spelled := by
  cases l with
  | none => exact fun _ h => nomatch h
  | fetch _ _ _ _ => exact fun _ h => nomatch h
  | limit t =>
    refine nm_one ?_
    rcases h with (h | h) | h
    · exact nm_kind h (by decide)
    · exact nm_kind (k := .sym) (by rw [h]) (by decide)
    · exact nm_k (by decide) h
theorem nm_prec {t : Tok} {p : Option Tok} (h : CE.Wf (.dateTime t p)) : AllN p.toList := by
  rw [CE_Wf_dateTime] at h
  rcases h with ⟨_, rfl⟩ | ⟨_, h⟩
  · exact fun _ h => nomatch h
  · exact nm_opt h fun _ h => nm_kind h (by decide)

/-- What is spelled in a type are fields of intervals and numbers. -/
def AllT (Q : Tok → Prop) (ts : List Tok) : Prop := ∀ t ∈ ts, Q t
theorem allt_append {Q : Tok → Prop} {a b : List Tok} (ha : AllT Q a) (hb : AllT Q b) : AllT Q (a ++ b) :=
  fun t ht => (List.mem_append.1 ht).elim (ha t) (hb t)
theorem allt_one {Q : Tok → Prop} {t : Tok} (h : Q t) : AllT Q [t] := fun u hu => by
  cases hu with
  | head => exact h
  | tail _ h => exact nomatch h

mutual
theorem ty_ty {Q : Tok → Prop} (hi : ∀ t, IvField t → Q t) (hn : ∀ t : Tok, t.kind = .int → Q t) : ∀ {c : CTy} {ts : List Tok}, GTy c ts → AllT Q c.spelled
  | _, _, .row _ _ h _ => ty_fields hi hn h
  | _, _, .interval _ h => allt_append (allt_one (hi _ h)) fun _ h => nomatch h
  | _, _, .intervalTo _ h _ g => allt_append (allt_one (hi _ h)) (allt_one (hi _ g))
  | _, _, .timestamp _ h _ => ty_precision hi hn h
  | _, _, .time _ h _ => ty_precision hi hn h
  | _, _, .double _ _ => fun _ h => nomatch h
  | _, _, .legacyArray _ _ h _ => (ty_ty hi hn h :)
  | _, _, .legacyMap _ _ h _ k _ => allt_append (ty_ty hi hn h) (ty_ty hi hn k)
  | _, _, .arrayOf h _ => (ty_ty hi hn h :)
  | _, _, .arrayOfSize h _ _ _ _ => (ty_ty hi hn h :)
  | _, _, .name _ => fun _ h => nomatch h
  | _, _, .generic _ _ h _ => ty_params hi hn h
theorem ty_precision {Q : Tok → Prop} (hi : ∀ t, IvField t → Q t) (hn : ∀ t : Tok, t.kind = .int → Q t) : ∀ {c : Option CTParam} {ts : List Tok}, GPrec c ts → AllT Q (CTParam.spelledOpt c)
  | _, _, .none => fun _ h => nomatch h
  | _, _, .some _ h _ => ty_param hi hn h
theorem ty_param {Q : Tok → Prop} (hi : ∀ t, IvField t → Q t) (hn : ∀ t : Tok, t.kind = .int → Q t) : ∀ {c : CTParam} {ts : List Tok}, GParam c ts → AllT Q c.spelled
  | _, _, .int h => allt_one (hn _ h)
  | _, _, .ty h => ty_ty hi hn h
theorem ty_params {Q : Tok → Prop} (hi : ∀ t, IvField t → Q t) (hn : ∀ t : Tok, t.kind = .int → Q t) : ∀ {c : List CTParam} {ts : List Tok}, GParams c ts → AllT Q (CTParam.spelleds c)
  | _, _, .one h => allt_append (ty_param hi hn h) fun _ h => nomatch h
  | _, _, .more h _ k => allt_append (ty_param hi hn h) (ty_params hi hn k)
theorem ty_field {Q : Tok → Prop} (hi : ∀ t, IvField t → Q t) (hn : ∀ t : Tok, t.kind = .int → Q t) : ∀ {c : CField} {ts : List Tok}, GField c ts → AllT Q c.spelled
  | _, _, .unnamed h => ty_ty hi hn h
  | _, _, .named _ h => ty_ty hi hn h
theorem ty_fields {Q : Tok → Prop} (hi : ∀ t, IvField t → Q t) (hn : ∀ t : Tok, t.kind = .int → Q t) : ∀ {c : List CField} {ts : List Tok}, GFields c ts → AllT Q (CField.spelleds c)
  | _, _, .one h => allt_append (ty_field hi hn h) fun _ h => nomatch h
  | _, _, .more h _ k => allt_append (ty_field hi hn h) (ty_fields hi hn k)
end

theorem nm_ty {c : CTy} {ts : List Tok} (h : GTy c ts) : AllN c.spelled :=
  ty_ty (fun _ => nm_iv) (fun _ h => nm_kind h (by decide)) h

mutual
theorem nm_CE_Wf : ∀ c : CE, CE.Wf c → AllN (c.spelled)
  | .or_ l r, hw => alln_append (nm_CE_Wf l hw.1) (nm_CE_Wf r hw.2.1)
  | .and_ l r, hw => alln_append (nm_CE_Wf l hw.1) (nm_CE_Wf r hw.2.2.1)
  | .not_ v, hw => (nm_CE_Wf v hw.1 :)
  | .cmp op l r, hw => alln_append (nm_CE_Wf l hw.2.1) (nm_CE_Wf r hw.2.2.2.1)
  | .between _ v l u, hw => alln_append (alln_append (nm_CE_Wf v hw.1) (nm_CE_Wf l hw.2.2.1)) (nm_CE_Wf u hw.2.2.2.2.1)
  | .inList _ v es, hw => alln_append (nm_CE_Wf v hw.1) (nm_CE_Wfs es hw.2.2.2)
  | .inSub _ v q, hw => alln_append (nm_CE_Wf v hw.1) (nm_CQ_Wf q hw.2.2)
  | .like _ v p esc, hw => alln_append (alln_append (nm_CE_Wf v hw.1) (nm_CE_Wf p hw.2.2.1)) (nm_CE_WfOpt esc hw.2.2.2.2)
  | .isNull _ v, hw => (nm_CE_Wf v hw.1 :)
  | .distinct _ l r, hw => alln_append (nm_CE_Wf l hw.1) (nm_CE_Wf r hw.2.2.1)
  | .quantified op k l q, hw => alln_append (nm_CE_Wf l hw.2.2.1) (nm_CQ_Wf q hw.2.2.2.2)
  | .concat l r, hw => alln_append (nm_CE_Wf l hw.1) (nm_CE_Wf r hw.2.2.1)
  | .arith op l r, hw => alln_append (nm_CE_Wf l hw.2.1) (nm_CE_Wf r hw.2.2.1)
  | .sign op v, hw => (nm_CE_Wf v hw.2.1 :)
  | .atZone v z, hw => alln_append (nm_CE_Wf v hw.1) (nm_CE_Wf z hw.2.2.2.1)
  | .null, _ => fun _ h => nomatch h
  | .interval sg s f t, hw => alln_append (nm_one (nm_iv hw.2.2.1)) (nm_opt hw.2.2.2 fun _ => nm_iv)
  | .typeCtor n s, hw => (nm_one (nm_ident hw.1) :)
  | .doublePrecision s, _ => fun _ h => nomatch h
  | .num _ t, _ => fun _ h => nomatch h
  | .bool t, _ => fun _ h => nomatch h
  | .str s, _ => fun _ h => nomatch h
  | .binary t, _ => fun _ h => nomatch h
  | .param, _ => fun _ h => nomatch h
  | .row es, hw => (nm_CE_Wfs es hw.2 :)
  | .rowKw es, hw => (nm_CE_Wfs es hw.2 :)
  | .listagg q e sep ov ob, hw => alln_append (nm_CE_Wf e hw.2.1) (nm_CSort_Wfs ob hw.2.2.2.2.2)
  | .callStar n l f w, hw => alln_append (alln_append (nm_opt hw.2.2.1 fun _ => nm_ident) (nm_CE_WfOpt f hw.2.2.2.1)) (nm_CWin_WfOpt w hw.2.2.2.2)
  | .call n q args ob f ign w, hw => alln_append (alln_append (alln_append (nm_CE_Wfs args hw.2.2.2.2.1) (nm_CSort_Wfs ob hw.2.2.2.2.2.1)) (nm_CE_WfOpt f hw.2.2.2.2.2.2.1)) (nm_CWin_WfOpt w hw.2.2.2.2.2.2.2.2)
  | .lam p ids b, hw => alln_append (nm_idents hw.1) (nm_CE_Wf b hw.2.2)
  | .sub q, hw => (nm_CQ_Wf q hw :)
  | .case v ws e, hw => alln_append (alln_append (nm_CE_WfOpt v hw.1) (nm_CWhen_Wfs ws hw.2.2.1)) (nm_CE_WfOpt e hw.2.2.2)
  | .cast _ e ty ts, hw => alln_append (nm_CE_Wf e hw.1) (nm_ty hw.2)
  | .array es, hw => (nm_CE_Wfs es hw :)
  | .subscript v i, hw => alln_append (nm_CE_Wf v hw.1) (nm_CE_Wf i hw.2.2.1)
  | .col t, hw => (nm_one (nm_ident hw) :)
  | .deref v n, hw => alln_append (nm_CE_Wf v hw.1) (nm_one (nm_ident hw.2.2))
  | .dateTime t p, hw => (nm_prec hw :)
  | .session t, _ => fun _ h => nomatch h
  | .normalize v f, hw => alln_append (nm_CE_Wf v hw.1) (nm_opt hw.2.2 fun _ => nm_kof (by decide))
  | .paren e, hw => (nm_CE_Wf e hw :)
  | .exists_ q, hw => (nm_CQ_Wf q hw :)
  | .position l r, hw => alln_append (nm_CE_Wf l hw.1) (nm_CE_Wf r hw.2.2.1)
  | .substring v f n, hw => alln_append (alln_append (nm_CE_Wf v hw.1) (nm_CE_Wf f hw.2.2.1)) (nm_CE_WfOpt n hw.2.2.2.2)
  | .extract t v, hw => (nm_CE_Wf v hw.2.1 :)
  | .trimFrom s c v, hw => alln_append (nm_CE_WfOpt c hw.2.1) (nm_CE_Wf v hw.2.2.1)
  | .trim v c, hw => alln_append (nm_CE_Wf v hw.1) (nm_CE_WfOpt c hw.2.2)
  | .grouping ns, _ => fun _ h => nomatch h
theorem nm_CE_Wfs : ∀ c : List CE, CE.Wfs c → AllN (CE.spelleds c)
  | [], _ => fun _ h => nomatch h
  | e :: es, hw => alln_append (nm_CE_Wf e hw.1) (nm_CE_Wfs es hw.2)
theorem nm_CE_WfOpt {p : Nat} : ∀ c : Option CE, CE.WfOpt p c → AllN (CE.spelledOpt c)
  | none, _ => fun _ h => nomatch h
  | some e, hw => nm_CE_Wf e hw.1
theorem nm_CWhen_Wfs : ∀ c : List CWhen, CWhen.Wfs c → AllN (CWhen.spelleds c)
  | [], _ => fun _ h => nomatch h
  | .mk c v :: ws, hw => alln_append (alln_append (nm_CE_Wf c hw.1) (nm_CE_Wf v hw.2.1)) (nm_CWhen_Wfs ws hw.2.2)
theorem nm_CSort_Wfs : ∀ c : List CSort, CSort.Wfs c → AllN (CSort.spelleds c)
  | [], _ => fun _ h => nomatch h
  | .mk e o n :: ss, hw => alln_append (nm_CE_Wf e hw.1) (nm_CSort_Wfs ss hw.2.2.2)
theorem nm_CBound_Wf : ∀ c : CBound, CBound.Wf c → AllN (c.spelled)
  | .unbounded t, _ => fun _ h => nomatch h
  | .current, _ => fun _ h => nomatch h
  | .bounded e t, hw => (nm_CE_Wf e hw.1 :)
theorem nm_CFrame_Wf : ∀ c : CFrame, CFrame.Wf c → AllN (c.spelled)
  | .none, _ => fun _ h => nomatch h
  | .from_ t b, hw => (nm_CBound_Wf b hw.2 :)
  | .between t a b, hw => alln_append (nm_CBound_Wf a hw.2.1) (nm_CBound_Wf b hw.2.2)
theorem nm_CWin_Wf : ∀ c : CWin, CWin.Wf c → AllN (c.spelled)
  | .ref t, hw => (nm_one (nm_ident hw) :)
  | .spec p ps ob f, hw => alln_append (alln_append (alln_append (nm_opt hw.1 fun _ => nm_ident) (nm_CE_Wfs ps hw.2.1)) (nm_CSort_Wfs ob hw.2.2.1)) (nm_CFrame_Wf f hw.2.2.2)
theorem nm_CWin_WfOpt : ∀ c : Option CWin, CWin.WfOpt c → AllN (CWin.spelledOpt c)
  | none, _ => fun _ h => nomatch h
  | some w, hw => nm_CWin_Wf w hw
theorem nm_CSet_Wf : ∀ c : CSet, CSet.Wf c → AllN (c.spelled)
  | .paren es, hw => (nm_CE_Wfs es hw :)
  | .expr e, hw => (nm_CE_Wf e hw :)
theorem nm_CSet_Wfs : ∀ c : List CSet, CSet.Wfs c → AllN (CSet.spelleds c)
  | [], _ => fun _ h => nomatch h
  | s :: ss, hw => alln_append (nm_CSet_Wf s hw.1) (nm_CSet_Wfs ss hw.2)
theorem nm_CGrp_Wf : ∀ c : CGrp, CGrp.Wf c → AllN (c.spelled)
  | .single s, hw => (nm_CSet_Wf s hw :)
  | .rollup es, hw => (nm_CE_Wfs es hw :)
  | .cube es, hw => (nm_CE_Wfs es hw :)
  | .sets ss, hw => (nm_CSet_Wfs ss hw.2 :)
theorem nm_CGrp_Wfs : ∀ c : List CGrp, CGrp.Wfs c → AllN (CGrp.spelleds c)
  | [], _ => fun _ h => nomatch h
  | s :: ss, hw => alln_append (nm_CGrp_Wf s hw.1) (nm_CGrp_Wfs ss hw.2)
theorem nm_CItem_Wf : ∀ c : CItem, CItem.Wf c → AllN (c.spelled)
  | .expr e b a, hw => alln_append (nm_CE_Wf e hw.1) (nm_opt hw.2.1 fun _ => nm_ident)
  | .allOf e cols, hw => alln_append (nm_CE_Wf e hw.1) (nm_idents hw.2.2)
  | .all, _ => fun _ h => nomatch h
theorem nm_CItem_Wfs : ∀ c : List CItem, CItem.Wfs c → AllN (CItem.spelleds c)
  | [], _ => fun _ h => nomatch h
  | s :: ss, hw => alln_append (nm_CItem_Wf s hw.1) (nm_CItem_Wfs ss hw.2)
theorem nm_CWinDef_Wfs : ∀ c : List CWinDef, CWinDef.Wfs c → AllN (CWinDef.spelleds c)
  | [], _ => fun _ h => nomatch h
  | .mk n w :: ws, hw => alln_append (alln_append (nm_one (nm_ident hw.1)) (nm_CWin_Wf w hw.2.2.1)) (nm_CWinDef_Wfs ws hw.2.2.2)
theorem nm_CQ_Wf : ∀ c : CQ, CQ.Wf c → AllN (c.spelled)
  | .mk rc w b, hw => alln_append (nm_CNamed_Wfs w hw.2.1) (nm_CQN_Wf b hw.2.2)
theorem nm_CNamed_Wfs : ∀ c : List CNamed, CNamed.Wfs c → AllN (CNamed.spelleds c)
  | [], _ => fun _ h => nomatch h
  | .mk n cols q :: ns, hw => alln_append (alln_append (alln_append (nm_one (nm_ident hw.1)) (nm_idents hw.2.1)) (nm_CQ_Wf q hw.2.2.1)) (nm_CNamed_Wfs ns hw.2.2.2)
theorem nm_CQN_Wf : ∀ c : CQN, CQN.Wf c → AllN (c.spelled)
  | .mk t ob off lim, hw => alln_append (alln_append (nm_CQT_Wf t hw.1) (nm_CSort_Wfs ob hw.2.1)) (nm_limit hw.2.2.2)
theorem nm_CQT_Wf : ∀ c : CQT, CQT.Wf c → AllN (c.spelled)
  | .set op q l r, hw => alln_append (alln_append (nm_opt hw.2.1 fun _ => nm_quant) (nm_CQT_Wf l hw.2.2.1)) (nm_CQT_Wf r hw.2.2.2.1)
  | .spec q items fr wh gq gs hv ws, hw => alln_append (alln_append (alln_append (alln_append (alln_append (alln_append (alln_append (nm_opt hw.1 fun _ => nm_quant) (nm_CItem_Wfs items hw.2.2.1)) (nm_CR_Wfs fr hw.2.2.2.1)) (nm_CE_WfOpt wh hw.2.2.2.2.1)) (nm_opt hw.2.2.2.2.2.1 fun _ => nm_quant)) (nm_CGrp_Wfs gs hw.2.2.2.2.2.2.2.1)) (nm_CE_WfOpt hv hw.2.2.2.2.2.2.2.2.1)) (nm_CWinDef_Wfs ws hw.2.2.2.2.2.2.2.2.2)
  | .table n, hw => (nm_idents hw.2 :)
  | .values es, hw => (nm_CE_Wfs es hw.2 :)
  | .sub q, hw => (nm_CQN_Wf q hw :)
theorem nm_CR_Wf : ∀ c : CR, CR.Wf c → AllN (c.spelled)
  | .cross l r, hw => alln_append (nm_CR_Wf l hw.1) (nm_CR_Wf r hw.2.1)
  | .join l _ r c, hw => alln_append (alln_append (nm_CR_Wf l hw.1) (nm_CR_Wf r hw.2.1)) (nm_CCrit_Wf c hw.2.2)
  | .natural l _ r, hw => alln_append (nm_CR_Wf l hw.1) (nm_CR_Wf r hw.2.1)
  | .sample r t e, hw => alln_append (alln_append (nm_CR_Wf r hw.1) (nm_one (nm_kof (by decide) hw.2.2.1))) (nm_CE_Wf e hw.2.2.2)
  | .alias r _ n cols, hw => alln_append (alln_append (nm_CR_Wf r hw.1) (nm_one (nm_ident hw.2.2.1))) (nm_idents hw.2.2.2)
  | .table n, hw => (nm_idents hw.2 :)
  | .sub q, hw => (nm_CQ_Wf q hw :)
  | .unnest es _, hw => (nm_CE_Wfs es hw.2 :)
  | .lateral q, hw => (nm_CQ_Wf q hw :)
  | .paren r, hw => (nm_CR_Wf r hw :)
theorem nm_CR_Wfs : ∀ c : List CR, CR.Wfs c → AllN (CR.spelleds c)
  | [], _ => fun _ h => nomatch h
  | s :: ss, hw => alln_append (nm_CR_Wf s hw.1) (nm_CR_Wfs ss hw.2)
theorem nm_CCrit_Wf : ∀ c : CCrit, CCrit.Wf c → AllN (c.spelled)
  | .on e, hw => (nm_CE_Wf e hw :)
  | .using cols, hw => (nm_idents hw.2 :)
end

end Treeno
