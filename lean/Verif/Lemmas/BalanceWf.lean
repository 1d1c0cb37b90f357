import Verif.Lemmas.Balance
import Verif.Lemmas.WfEqs
import Verif.Lemmas.ParseSound
/-!
# Parentheses are balanced in whatever the parser has read
-/
set_option linter.unusedSimpArgs false
set_option linter.unusedVariables false
namespace Treeno
open Spec

/-! ## Tokens -/

theorem NP.kof {ks : List Str} {t : Tok} (h : Kof ks t) : NP t := NP.kind (by rw [h.1]; simp)

theorem NP.k {k : Str} {t : Tok} (h : K k t) : NP t := NP.kind (by rw [h.1]; simp)

theorem NP.s {s : Str} {t : Tok} (h : S s t) (h1 : s ≠ c% "(") (h2 : s ≠ c% ")") : NP t := by
  cases h
  simp [NP, Tok.isSym, h1, h2]

theorem NP.sof {ss : List Str} {t : Tok} (h : Sof ss t) (h1 : (c% "(") ∉ ss) (h2 : (c% ")") ∉ ss) : NP t := by
  constructor
  · simp only [Tok.isSym, Bool.and_eq_false_iff, beq_eq_false_iff_ne]
    exact .inr fun e => h1 (e ▸ h.2)
  · simp only [Tok.isSym, Bool.and_eq_false_iff, beq_eq_false_iff_ne]
    exact .inr fun e => h2 (e ▸ h.2)

theorem NP.ivField {t : Tok} (h : IvField t) : NP t := by
  rcases h with h | h | h | h | h | h <;> exact NP.k h

theorem NP.countW {t : Tok} (h : Count t) : NP t := by
  rcases h with h | h
  · exact NP.kind (by simp [h])
  · exact NP.s h (by decide) (by decide)

theorem BalAll.idents {ns : List Tok} (h : Idents ns) : BalAll (ns.map fun t => [t]) := by
  intro x hx
  rw [List.mem_map] at hx
  obtain ⟨t, ht, rfl⟩ := hx
  exact Bal.one (NP.ident (h t ht))

theorem Bal.qnameI {ns : List Tok} (h : Idents ns) : Bal (Spec.qname ns) := Bal.sep ⟨rfl, rfl⟩ (BalAll.idents h)

theorem Bal.columnsI {ns : List Tok} (h : Idents ns) : Bal (Spec.columns ns) := by
  unfold Spec.columns
  split
  · exact Bal.nil
  · exact Bal.parens (Bal.commas (BalAll.idents h))

theorem Bal.strW {s : CStr} (h : s.Wf) : Bal s.yield := by
  cases s with
  | basic t => exact Bal.str (s := .basic t) h
  | unicode t e => exact Bal.str (s := .unicode t e) h

theorem Bal.overflowW {o : COverflow} (h : o.Wf) : Bal o.yield := by
  cases o with
  | error => exact Bal.ofNP (by simp [COverflow.yield, NP.kw])
  | truncate f w =>
    rw [COverflow.yield]
    refine Bal.append (Bal.append (Bal.ofNP (by simp [NP.kw])) ?_) (Bal.ofNP (by simp [NP.kw]))
    cases f with
    | none => exact Bal.nil
    | some s => exact Bal.optPart Bal.nil (BalOpt.some (Bal.strW (h s rfl)))

theorem Bal.offsetW {o} (h : OptOffset o) : Bal (offsetPart o) := by
  cases o with
  | none => exact Bal.nil
  | some p =>
    obtain ⟨h1, h2⟩ := h p rfl
    exact Bal.cons (NP.kw _) (Bal.cons (NP.countW h1) (Bal.optTok (fun _ => NP.kof) h2))

theorem Bal.limitW {o : CLimit} (h : o.Wf) : Bal (CLimit.yield o) := by
  cases o with
  | none => exact Bal.nil
  | limit t =>
    refine Bal.cons (NP.kw _) (Bal.one ?_)
    rcases h with h | h
    · exact NP.countW h
    · exact NP.k h
  | fetch f n r t =>
    obtain ⟨h1, h2, h3⟩ := h
    rw [CLimit.yield]
    simp only [List.cons_append, List.nil_append, List.append_assoc]
    refine Bal.cons (NP.kw _) (Bal.cons (NP.kof h1) (.append (Bal.optTok (fun _ => NP.countW) h2) (Bal.cons (NP.kof h3) ?_)))
    cases t with
    | true => exact Bal.cons (NP.kw _) (Bal.one (NP.kw _))
    | false => exact Bal.one (NP.kw _)

/-! ## Types -/

theorem Bal.inPar {l r : Tok} {a : List Tok} (hl : S (c% "(") l) (hr : S (c% ")") r) (ha : Bal a) :
    Bal (l :: (a ++ [r])) := by
  cases hl; cases hr; exact Bal.parens ha

theorem bal_zone {z : Option Bool} {ts : List Tok} (h : GZone z ts) : Bal ts := by
  cases h with
  | none => exact Bal.nil
  | without a b c => exact Bal.cons (NP.k a) (Bal.cons (NP.k b) (Bal.one (NP.k c)))
  | with_ a b c => exact Bal.cons (NP.k a) (Bal.cons (NP.k b) (Bal.one (NP.k c)))

mutual
theorem bal_gty : ∀ {c : CTy} {ts : List Tok}, GTy c ts → Bal ts
  | _, _, .row a l f r => Bal.cons (NP.k a) (Bal.inPar l r (bal_gfields f))
  | _, _, .interval a f => Bal.cons (NP.k a) (Bal.one (NP.ivField f))
  | _, _, .intervalTo a f b g => Bal.cons (NP.k a) (Bal.cons (NP.ivField f) (Bal.cons (NP.k b) (Bal.one (NP.ivField g))))
  | _, _, .timestamp a p z => Bal.cons (NP.k a) ((bal_gprec p).append (bal_zone z))
  | _, _, .time a p z => Bal.cons (NP.k a) ((bal_gprec p).append (bal_zone z))
  | _, _, .double a b => Bal.cons (NP.k a) (Bal.one (NP.k b))
  | _, _, .legacyArray a l t r => Bal.cons (NP.k a) (Bal.cons (NP.s l (by decide) (by decide))
      ((bal_gty t).append (Bal.one (NP.s r (by decide) (by decide)))))
  | _, _, .legacyMap a l t m u r => Bal.cons (NP.k a) (Bal.cons (NP.s l (by decide) (by decide))
      ((bal_gty t).append (Bal.cons (NP.s m (by decide) (by decide))
        ((bal_gty u).append (Bal.one (NP.s r (by decide) (by decide)))))))
  | _, _, .arrayOf t a => (bal_gty t).append (Bal.one (NP.k a))
  | _, _, .arrayOfSize t a l n r => (bal_gty t).append (Bal.cons (NP.k a) (Bal.cons (NP.s l (by decide) (by decide))
      (Bal.cons (NP.kind (by rw [n]; simp)) (Bal.one (NP.s r (by decide) (by decide))))))
  | _, _, .name a => Bal.one (NP.ident a)
  | _, _, .generic a l p r => Bal.cons (NP.ident a) (Bal.inPar l r (bal_gparams p))
theorem bal_gprec : ∀ {c : Option CTParam} {ts : List Tok}, GPrec c ts → Bal ts
  | _, _, .none => Bal.nil
  | _, _, .some l p r => Bal.inPar l r (bal_gparam p)
theorem bal_gparam : ∀ {c : CTParam} {ts : List Tok}, GParam c ts → Bal ts
  | _, _, .int h => Bal.one (NP.kind (by rw [h]; simp))
  | _, _, .ty t => bal_gty t
theorem bal_gparams : ∀ {c : List CTParam} {ts : List Tok}, GParams c ts → Bal ts
  | _, _, .one p => bal_gparam p
  | _, _, .more p m ps => (bal_gparam p).append (Bal.cons (NP.s m (by decide) (by decide)) (bal_gparams ps))
theorem bal_gfield : ∀ {c : CField} {ts : List Tok}, GField c ts → Bal ts
  | _, _, .unnamed t => bal_gty t
  | _, _, .named n t => Bal.cons (NP.ident n) (bal_gty t)
theorem bal_gfields : ∀ {c : List CField} {ts : List Tok}, GFields c ts → Bal ts
  | _, _, .one p => bal_gfield p
  | _, _, .more p m ps => (bal_gfield p).append (Bal.cons (NP.s m (by decide) (by decide)) (bal_gfields ps))
end

/-! ## Trees -/

mutual
theorem CE.wbal : ∀ c : CE, c.Wf → Bal c.yield
  | .or_ l r, h => by
    rw [CE_Wf_or_] at h; rw [CE_yield_or_]
    exact (CE.wbal l h.1).append (Bal.cons (NP.kw _) (CE.wbal r h.2.1))
  | .and_ l r, h => by
    rw [CE_Wf_and_] at h; rw [CE_yield_and_]
    exact (CE.wbal l h.1).append (Bal.cons (NP.kw _) (CE.wbal r h.2.2.1))
  | .not_ v, h => by
    rw [CE_Wf_not_] at h; rw [CE_yield_not_]
    exact (Bal.cons (NP.kw _) (CE.wbal v h.1))
  | .cmp op l r, h => by
    rw [CE_Wf_cmp] at h; rw [CE_yield_cmp]
    exact (CE.wbal l h.2.1).append (Bal.cons (NP.sof h.1 (by decide) (by decide)) (CE.wbal r h.2.2.2.1))
  | .between neg v l u, h => by
    rw [CE_Wf_between] at h; rw [CE_yield_between]
    exact (CE.wbal v h.1).append (.append (Bal.flag (Bal.one (NP.kw _))) (Bal.cons (NP.kw _)
      ((CE.wbal l h.2.2.1).append (Bal.cons (NP.kw _) (CE.wbal u h.2.2.2.2.1)))))
  | .inList neg v es, h => by
    rw [CE_Wf_inList] at h; rw [CE_yield_inList]
    exact (CE.wbal v h.1).append (.append (Bal.flag (Bal.one (NP.kw _))) (Bal.cons (NP.kw _)
      (Bal.parens (Bal.commas (CE.wbals es h.2.2.2)))))
  | .inSub neg v q, h => by
    rw [CE_Wf_inSub] at h; rw [CE_yield_inSub]
    exact (CE.wbal v h.1).append (.append (Bal.flag (Bal.one (NP.kw _))) (Bal.cons (NP.kw _)
      (Bal.parens (CQ.wbal q h.2.2))))
  | .like neg v p esc, h => by
    rw [CE_Wf_like] at h; rw [CE_yield_like]
    exact (CE.wbal v h.1).append (.append (Bal.flag (Bal.one (NP.kw _))) (Bal.cons (NP.kw _)
      ((CE.wbal p h.2.2.1).append (Bal.optPart (Bal.one (NP.kw _)) (CE.wbalOpt esc h.2.2.2.2)))))
  | .isNull neg v, h => by
    rw [CE_Wf_isNull] at h; rw [CE_yield_isNull]
    exact (CE.wbal v h.1).append (Bal.cons (NP.kw _) (.append (Bal.flag (Bal.one (NP.kw _))) (Bal.one (NP.kw _))))
  | .distinct neg l r, h => by
    rw [CE_Wf_distinct] at h; rw [CE_yield_distinct]
    exact (CE.wbal l h.1).append (Bal.cons (NP.kw _) (.append (Bal.flag (Bal.one (NP.kw _))) (Bal.cons (NP.kw _)
      (Bal.cons (NP.kw _) (CE.wbal r h.2.2.1)))))
  | .concat l r, h => by
    rw [CE_Wf_concat] at h; rw [CE_yield_concat]
    exact (CE.wbal l h.1).append (Bal.cons ⟨rfl, rfl⟩ (CE.wbal r h.2.2.1))
  | .arith op l r, h => by
    rw [CE_Wf_arith] at h; rw [CE_yield_arith]
    exact (CE.wbal l h.2.1).append (Bal.cons (NP.sof h.1 (by decide) (by decide)) (CE.wbal r h.2.2.1))
  | .sign op v, h => by
    rw [CE_Wf_sign] at h; rw [CE_yield_sign]
    exact Bal.cons (NP.sof h.1 (by decide) (by decide)) (CE.wbal v h.2.1)
  | .null, h => by rw [CE_yield_null]; exact Bal.one (NP.kw _)
  | .typeCtor n s, h => by
    rw [CE_Wf_typeCtor] at h; rw [CE_yield_typeCtor]; exact Bal.cons (NP.ident h.1) (Bal.strW h.2)
  | .num m t, h => by
    rw [CE_Wf_num] at h; rw [CE_yield_num]
    exact .append (Bal.flag (Bal.one ⟨rfl, rfl⟩)) (Bal.one (NP.num h))
  | .bool t, h => by rw [CE_Wf_bool] at h; rw [CE_yield_bool]; exact Bal.one (NP.kof h)
  | .str s, h => by rw [CE_Wf_str] at h; rw [CE_yield_str]; exact Bal.strW h
  | .binary t, h => by rw [CE_Wf_binary] at h; rw [CE_yield_binary]; exact Bal.one (NP.kind (by simp [h]))
  | .param, h => by rw [CE_yield_param]; exact Bal.one ⟨rfl, rfl⟩
  | .row es, h => by
    rw [CE_Wf_row] at h; rw [CE_yield_row]; exact Bal.parens (Bal.commas (CE.wbals es h.2))
  | .rowKw es, h => by
    rw [CE_Wf_rowKw] at h; rw [CE_yield_rowKw]; exact Bal.cons (NP.kw _) (Bal.parens (Bal.commas (CE.wbals es h.2)))
  | .listagg q e sep ov ob, h => by
    rw [CE_Wf_listagg] at h; rw [CE_yield_listagg]
    obtain ⟨h1, h2, h3, h4, _, h6⟩ := h
    refine Bal.cons (NP.kw _) (.append (Bal.parens (.append (.append (.append (Bal.optTok (fun _ => NP.kof) h1) (CE.wbal e h2)) ?_) ?_)) (Bal.cons (NP.kw _) (Bal.cons (NP.kw _) (Bal.parens (Bal.order (CSort.wbals ob h6))))))
    · refine Bal.optPart (Bal.one ⟨rfl, rfl⟩) ?_
      intro x hx
      rw [Option.map_eq_some_iff] at hx
      obtain ⟨s, hs, rfl⟩ := hx
      exact Bal.strW (h3 s hs)
    · refine Bal.optPart Bal.nil ?_
      intro x hx
      rw [Option.map_eq_some_iff] at hx
      obtain ⟨s, hs, rfl⟩ := hx
      exact Bal.overflowW (h4 s hs)
  | .callStar n l f w, h => by
    rw [CE_Wf_callStar] at h; rw [CE_yield_callStar]
    obtain ⟨_, ht, h2, h3, h4⟩ := h
    refine .append (Bal.qnameI ht) (.append (Bal.parens (.append ?_ (Bal.one ⟨rfl, rfl⟩))) (.append ?_ ?_))
    · cases l with
      | none => exact Bal.nil
      | some l => exact Bal.cons (NP.ident (h2 l rfl)) (Bal.one ⟨rfl, rfl⟩)
    · have := Bal.optParen (Bal.one (NP.kw (c% "WHERE"))) (CE.wbalOpt f h3)
      cases f with
      | none => exact Bal.nil
      | some f => exact Bal.cons (NP.kw _) this
    · exact Bal.optPart (Bal.one (NP.kw _)) (CWin.wbalOpt w h4)
  | .call n q args ob f ign w, h => by
    rw [CE_Wf_call] at h; rw [CE_yield_call]
    obtain ⟨_, ht, h2, _, h4, h5, h6, _, h8⟩ := h
    refine .append (Bal.qnameI ht) (.append (Bal.parens (.append (.append (Bal.optTok (fun _ => NP.kof) h2) (Bal.commas (CE.wbals args h4))) (Bal.order (CSort.wbals ob h5)))) (.append ?_ (.append ?_ ?_)))
    · have := Bal.optParen (Bal.one (NP.kw (c% "WHERE"))) (CE.wbalOpt f h6)
      cases f with
      | none => exact Bal.nil
      | some f => exact Bal.cons (NP.kw _) this
    · cases ign with
      | none => exact Bal.nil
      | some b => exact Bal.cons (NP.kw _) (Bal.one (NP.kw _))
    · exact Bal.optPart (Bal.one (NP.kw _)) (CWin.wbalOpt w h8)
  | .lam p ids b, h => by
    rw [CE_Wf_lam] at h; rw [CE_yield_lam]
    obtain ⟨h2, _, h4⟩ := h
    refine .append ?_ (Bal.cons ⟨rfl, rfl⟩ (CE.wbal b h4))
    cases p with
    | true => exact Bal.parens (Bal.commas (BalAll.idents h2))
    | false => exact Bal.ofNP (fun t ht => NP.ident (h2 t ht))
  | .case v ws e, h => by
    rw [CE_Wf_case] at h; rw [CE_yield_case]
    obtain ⟨h1, _, h3, h4⟩ := h
    exact Bal.cons (NP.kw _) (.append (Bal.optPart Bal.nil (CE.wbalOpt v h1)) (.append (Bal.flatten (CWhen.wbals ws h3))
      (.append (Bal.optPart (Bal.one (NP.kw _)) (CE.wbalOpt e h4)) (Bal.one (NP.kw _)))))
  | .cast tr e ty ts, h => by
    rw [CE_Wf_cast] at h; rw [CE_yield_cast]
    exact Bal.cons (NP.kw _) (Bal.parens (.append (CE.wbal e h.1) (Bal.cons (NP.kw _) (bal_gty h.2))))
  | .array es, h => by
    rw [CE_Wf_array] at h; rw [CE_yield_array]
    exact Bal.cons (NP.kw _) (Bal.cons ⟨rfl, rfl⟩ (.append (Bal.commas (CE.wbals es h)) (Bal.one ⟨rfl, rfl⟩)))
  | .subscript v i, h => by
    rw [CE_Wf_subscript] at h; rw [CE_yield_subscript]
    exact (CE.wbal v h.1).append (Bal.cons ⟨rfl, rfl⟩ ((CE.wbal i h.2.2.1).append (Bal.one ⟨rfl, rfl⟩)))
  | .col t, h => by rw [CE_Wf_col] at h; rw [CE_yield_col]; exact Bal.one (NP.ident h)
  | .deref v n, h => by
    rw [CE_Wf_deref] at h; rw [CE_yield_deref]
    exact (CE.wbal v h.1).append (Bal.cons ⟨rfl, rfl⟩ (Bal.one (NP.ident h.2.2)))
  | .dateTime t p, h => by
    rw [CE_Wf_dateTime] at h; rw [CE_yield_dateTime]
    rcases h with ⟨h1, rfl⟩ | ⟨h1, h2⟩
    · exact Bal.one (NP.k h1)
    · refine Bal.cons (NP.kof h1) (Bal.optParen Bal.nil ?_)
      intro x hx
      rw [Option.map_eq_some_iff] at hx
      obtain ⟨s, hs, rfl⟩ := hx
      exact Bal.one (NP.kind (by simp [h2 s hs]))
  | .session t, h => by rw [CE_Wf_session] at h; rw [CE_yield_session]; exact Bal.one (NP.kof h)
  | .paren e, h => by rw [CE_Wf_paren] at h; rw [CE_yield_paren]; exact Bal.parens (CE.wbal e h)
  | .sub q, h => by rw [CE_Wf_sub] at h; rw [CE_yield_sub]; exact Bal.parens (CQ.wbal q h)
  | .interval sg s f t, h => by
    rw [CE_Wf_interval] at h; rw [CE_yield_interval]
    obtain ⟨h1, h2, h3, h4⟩ := h
    refine Bal.cons (NP.kw _) (.append ?_ (.append (Bal.strW h2) (Bal.cons (NP.ivField h3) (Bal.optPart (Bal.one (NP.kw _)) ?_))))
    · refine Bal.optTok (fun t ht => ?_) h1
      exact NP.sof ht (by decide) (by decide)
    · exact BalOpt.tok (fun _ => NP.ivField) h4
  | .doublePrecision s, h => by
    rw [CE_Wf_doublePrecision] at h; rw [CE_yield_doublePrecision]
    exact Bal.cons (NP.kw _) (Bal.cons (NP.kw _) (Bal.strW h))
  | .normalize v f, h => by
    rw [CE_Wf_normalize] at h; rw [CE_yield_normalize]
    exact Bal.cons (NP.kw _) (Bal.parens ((CE.wbal v h.1).append (Bal.optPart (Bal.one ⟨rfl, rfl⟩) (BalOpt.tok (fun _ => NP.kof) h.2.2))))
  | .quantified op k l q, h => by
    rw [CE_Wf_quantified] at h; rw [CE_yield_quantified]
    obtain ⟨h1, h2, h3, h4, h5⟩ := h
    exact (CE.wbal l h3).append (Bal.cons (NP.sof h1 (by decide) (by decide)) (Bal.cons (NP.kof h2) (Bal.parens (CQ.wbal q h5))))
  | .atZone v z, h => by
    rw [CE_Wf_atZone] at h; rw [CE_yield_atZone]
    exact (CE.wbal v h.1).append (Bal.cons (NP.kw _) (Bal.cons (NP.kw _) (Bal.cons (NP.kw _) (CE.wbal z h.2.2.2.1))))
  | .exists_ q, h => by
    rw [CE_Wf_exists_] at h; rw [CE_yield_exists_]; exact Bal.cons (NP.kw _) (Bal.parens (CQ.wbal q h))
  | .position l r, h => by
    rw [CE_Wf_position] at h; rw [CE_yield_position]
    exact Bal.cons (NP.kw _) (Bal.parens ((CE.wbal l h.1).append (Bal.cons (NP.kw _) (CE.wbal r h.2.2.1))))
  | .substring v f n, h => by
    rw [CE_Wf_substring] at h; rw [CE_yield_substring]
    exact Bal.cons (NP.kw _) (Bal.parens ((CE.wbal v h.1).append (Bal.cons (NP.kw _) ((CE.wbal f h.2.2.1).append
      (Bal.optPart (Bal.one (NP.kw _)) (CE.wbalOpt n h.2.2.2.2))))))
  | .extract t v, h => by
    rw [CE_Wf_extract] at h; rw [CE_yield_extract]
    exact Bal.cons (NP.kw _) (Bal.parens (Bal.cons (NP.ident h.1) (Bal.cons (NP.kw _) (CE.wbal v h.2.1))))
  | .trimFrom s c v, h => by
    rw [CE_Wf_trimFrom] at h; rw [CE_yield_trimFrom]
    exact Bal.cons (NP.kw _) (Bal.parens ((Bal.optTok (fun _ => NP.kof) h.1).append ((Bal.optPart Bal.nil (CE.wbalOpt c h.2.1)).append
      (Bal.cons (NP.kw _) (CE.wbal v h.2.2.1)))))
  | .trim v c, h => by
    rw [CE_Wf_trim] at h; rw [CE_yield_trim]
    exact Bal.cons (NP.kw _) (Bal.parens ((CE.wbal v h.1).append (Bal.optPart (Bal.one ⟨rfl, rfl⟩) (CE.wbalOpt c h.2.2))))
  | .grouping ns, h => by
    rw [CE_Wf_grouping] at h; rw [CE_yield_grouping]
    refine Bal.cons (NP.kw _) (Bal.parens (Bal.commas ?_))
    intro x hx
    rw [List.mem_map] at hx
    obtain ⟨n, hn, rfl⟩ := hx
    exact Bal.qnameI (h n hn).2
theorem CE.wbals : ∀ es : List CE, CE.Wfs es → BalAll (CE.yields es)
  | [], _ => by rw [CE_yields_nil]; exact BalAll.nil
  | e :: es, h => by
    rw [CE_Wfs_cons] at h; rw [CE_yields_cons]; exact BalAll.cons (CE.wbal e h.1) (CE.wbals es h.2)
theorem CE.wbalOpt {p : Nat} : ∀ o : Option CE, CE.WfOpt p o → BalOpt (CE.yieldOpt o)
  | none, _ => by rw [CE_yieldOpt_none]; exact BalOpt.none
  | some e, h => by rw [CE_WfOpt_some] at h; rw [CE_yieldOpt_some]; exact BalOpt.some (CE.wbal e h.1)
theorem CWhen.wbals : ∀ ws : List CWhen, CWhen.Wfs ws → BalAll (CWhen.yields ws)
  | [], _ => by rw [CWhen_yields_nil]; exact BalAll.nil
  | .mk c v :: ws, h => by
    rw [CWhen_Wfs_cons] at h; rw [CWhen_yields_cons]
    exact BalAll.cons (Bal.cons (NP.kw _) (.append (CE.wbal c h.1) (Bal.cons (NP.kw _) (CE.wbal v h.2.1)))) (CWhen.wbals ws h.2.2)
theorem CSort.wbals : ∀ ws : List CSort, CSort.Wfs ws → BalAll (CSort.yields ws)
  | [], _ => by rw [CSort_yields_nil]; exact BalAll.nil
  | .mk e o n :: ws, h => by
    rw [CSort_Wfs_cons] at h; rw [CSort_yields_cons]
    obtain ⟨h1, h2, h3, h4⟩ := h
    refine BalAll.cons (.append (CE.wbal e h1) (.append (Bal.optTok (fun _ => NP.kof) h2) (Bal.optPart (Bal.one (NP.kw _)) ?_))) (CSort.wbals ws h4)
    intro x hx
    rw [Option.map_eq_some_iff] at hx
    obtain ⟨s, hs, rfl⟩ := hx
    exact Bal.one (NP.kof (h3 s hs))
theorem CBound.wbal : ∀ b : CBound, b.Wf → Bal b.yield
  | .unbounded t, h => by
    rw [CBound_Wf_unbounded] at h; rw [CBound_yield_unbounded]; exact Bal.cons (NP.kw _) (Bal.one (NP.kof h))
  | .current, _ => by rw [CBound_yield_current]; exact Bal.cons (NP.kw _) (Bal.one (NP.kw _))
  | .bounded e t, h => by
    rw [CBound_Wf_bounded] at h; rw [CBound_yield_bounded]; exact (CE.wbal e h.1).append (Bal.one (NP.kof h.2))
theorem CFrame.wbal : ∀ f : CFrame, f.Wf → Bal f.yield
  | .none, _ => by rw [CFrame_yield_none]; exact Bal.nil
  | .from_ t b, h => by
    rw [CFrame_Wf_from_] at h; rw [CFrame_yield_from_]; exact Bal.cons (NP.kof h.1) (CBound.wbal b h.2)
  | .between t a b, h => by
    rw [CFrame_Wf_between] at h; rw [CFrame_yield_between]
    exact Bal.cons (NP.kof h.1) (Bal.cons (NP.kw _) ((CBound.wbal a h.2.1).append (Bal.cons (NP.kw _) (CBound.wbal b h.2.2))))
theorem CWin.wbal : ∀ w : CWin, w.Wf → Bal w.yield
  | .ref t, h => by rw [CWin_Wf_ref] at h; rw [CWin_yield_ref]; exact Bal.one (NP.ident h)
  | .spec p ps ob f, h => by
    rw [CWin_Wf_spec] at h; rw [CWin_yield_spec]
    obtain ⟨h1, h2, h3, h4⟩ := h
    exact Bal.parens (.append (Bal.optTok (fun _ => NP.ident) h1) (.append (Bal.clause (Bal.cons (NP.kw _) (Bal.one (NP.kw _))) (CE.wbals ps h2))
      (.append (Bal.order (CSort.wbals ob h3)) (CFrame.wbal f h4))))
theorem CWin.wbalOpt : ∀ o : Option CWin, CWin.WfOpt o → BalOpt (CWin.yieldOpt o)
  | none, _ => by rw [CWin_yieldOpt_none]; exact BalOpt.none
  | some e, h => by rw [CWin_WfOpt_some] at h; rw [CWin_yieldOpt_some]; exact BalOpt.some (CWin.wbal e h)
theorem CSet.wbal : ∀ s : CSet, s.Wf → Bal s.yield
  | .paren es, h => by
    rw [CSet_Wf_paren] at h; rw [CSet_yield_paren]; exact Bal.parens (Bal.commas (CE.wbals es h))
  | .expr e, h => by rw [CSet_Wf_expr] at h; rw [CSet_yield_expr]; exact CE.wbal e h
theorem CSet.wbals : ∀ es : List CSet, CSet.Wfs es → BalAll (CSet.yields es)
  | [], _ => by rw [CSet_yields_nil]; exact BalAll.nil
  | e :: es, h => by
    rw [CSet_Wfs_cons] at h; rw [CSet_yields_cons]; exact BalAll.cons (CSet.wbal e h.1) (CSet.wbals es h.2)
theorem CGrp.wbal : ∀ s : CGrp, s.Wf → Bal s.yield
  | .single s, h => by rw [CGrp_Wf_single] at h; rw [CGrp_yield_single]; exact CSet.wbal s h
  | .rollup es, h => by
    rw [CGrp_Wf_rollup] at h; rw [CGrp_yield_rollup]
    exact Bal.cons (NP.kw _) (Bal.parens (Bal.commas (CE.wbals es h)))
  | .cube es, h => by
    rw [CGrp_Wf_cube] at h; rw [CGrp_yield_cube]
    exact Bal.cons (NP.kw _) (Bal.parens (Bal.commas (CE.wbals es h)))
  | .sets ss, h => by
    rw [CGrp_Wf_sets] at h; rw [CGrp_yield_sets]
    exact Bal.cons (NP.kw _) (Bal.cons (NP.kw _) (Bal.parens (Bal.commas (CSet.wbals ss h.2))))
theorem CGrp.wbals : ∀ es : List CGrp, CGrp.Wfs es → BalAll (CGrp.yields es)
  | [], _ => by rw [CGrp_yields_nil]; exact BalAll.nil
  | e :: es, h => by
    rw [CGrp_Wfs_cons] at h; rw [CGrp_yields_cons]; exact BalAll.cons (CGrp.wbal e h.1) (CGrp.wbals es h.2)
theorem CItem.wbal : ∀ s : CItem, s.Wf → Bal s.yield
  | .expr e b a, h => by
    rw [CItem_Wf_expr] at h; rw [CItem_yield_expr]
    exact (CE.wbal e h.1).append (.append (Bal.flag (Bal.one (NP.kw _))) (Bal.optTok (fun _ => NP.ident) h.2.1))
  | .allOf e cols, h => by
    rw [CItem_Wf_allOf] at h; rw [CItem_yield_allOf]
    exact (CE.wbal e h.1).append (Bal.cons ⟨rfl, rfl⟩ (Bal.cons ⟨rfl, rfl⟩ (.append (Bal.flag (Bal.one (NP.kw _))) (Bal.columnsI h.2.2))))
  | .all, _ => by rw [CItem_yield_all]; exact Bal.one ⟨rfl, rfl⟩
theorem CItem.wbals : ∀ es : List CItem, CItem.Wfs es → BalAll (CItem.yields es)
  | [], _ => by rw [CItem_yields_nil]; exact BalAll.nil
  | e :: es, h => by
    rw [CItem_Wfs_cons] at h; rw [CItem_yields_cons]; exact BalAll.cons (CItem.wbal e h.1) (CItem.wbals es h.2)
theorem CWinDef.wbals : ∀ es : List CWinDef, CWinDef.Wfs es → BalAll (CWinDef.yields es)
  | [], _ => by rw [CWinDef_yields_nil]; exact BalAll.nil
  | .mk n w :: es, h => by
    rw [CWinDef_Wfs_cons] at h; rw [CWinDef_yields_cons]
    exact BalAll.cons (Bal.cons (NP.ident h.1) (Bal.cons (NP.kw _) (CWin.wbal w h.2.2.1))) (CWinDef.wbals es h.2.2.2)
theorem CQ.wbal : ∀ q : CQ, q.Wf → Bal q.yield
  | .mk rc w b, h => by
    rw [CQ_Wf_mk] at h; rw [CQ_yield_mk]
    exact .append (Bal.clause (Bal.cons (NP.kw _) (Bal.flag (Bal.one (NP.kw _)))) (CNamed.wbals w h.2.1)) (CQN.wbal b h.2.2)
theorem CNamed.wbals : ∀ es : List CNamed, CNamed.Wfs es → BalAll (CNamed.yields es)
  | [], _ => by rw [CNamed_yields_nil]; exact BalAll.nil
  | .mk n cols q :: es, h => by
    rw [CNamed_Wfs_cons] at h; rw [CNamed_yields_cons]
    exact BalAll.cons (Bal.cons (NP.ident h.1) (.append (Bal.columnsI h.2.1) (Bal.cons (NP.kw _) (Bal.parens (CQ.wbal q h.2.2.1)))))
      (CNamed.wbals es h.2.2.2)
theorem CQN.wbal : ∀ q : CQN, q.Wf → Bal q.yield
  | .mk t ob off lim, h => by
    rw [CQN_Wf_mk] at h; rw [CQN_yield_mk]
    exact .append (CQT.wbal t h.1) (.append (Bal.order (CSort.wbals ob h.2.1)) (.append (Bal.offsetW h.2.2.1) (Bal.limitW h.2.2.2)))
theorem CQT.wbal : ∀ q : CQT, q.Wf → Bal q.yield
  | .set op q l r, h => by
    rw [CQT_Wf_set] at h; rw [CQT_yield_set]
    exact .append (CQT.wbal l h.2.2.1) (Bal.cons (NP.kof h.1) (.append (Bal.optTok (fun _ => NP.kof) h.2.1) (CQT.wbal r h.2.2.2.1)))
  | .spec q items fr wh gq gs hv ws, h => by
    rw [CQT_Wf_spec] at h; rw [CQT_yield_spec]
    obtain ⟨h1, _, h3, h4, h5, h6, _, h8, h9, h10⟩ := h
    exact Bal.cons (NP.kw _) (.append (Bal.optTok (fun _ => NP.kof) h1) (.append (Bal.commas (CItem.wbals items h3))
      (.append (Bal.clause (Bal.one (NP.kw _)) (CR.wbals fr h4)) (.append (Bal.optPart (Bal.one (NP.kw _)) (CE.wbalOpt wh h5))
      (.append (Bal.clause (Bal.cons (NP.kw _) (Bal.cons (NP.kw _) (Bal.optTok (fun _ => NP.kof) h6))) (CGrp.wbals gs h8))
      (.append (Bal.optPart (Bal.one (NP.kw _)) (CE.wbalOpt hv h9)) (Bal.clause (Bal.one (NP.kw _)) (CWinDef.wbals ws h10))))))))
  | .table n, h => by
    rw [CQT_Wf_table] at h; rw [CQT_yield_table]; exact Bal.cons (NP.kw _) (Bal.qnameI h.2)
  | .values es, h => by
    rw [CQT_Wf_values] at h; rw [CQT_yield_values]; exact Bal.cons (NP.kw _) (Bal.commas (CE.wbals es h.2))
  | .sub q, h => by rw [CQT_Wf_sub] at h; rw [CQT_yield_sub]; exact Bal.parens (CQN.wbal q h)
theorem CR.wbal : ∀ r : CR, r.Wf → Bal r.yield
  | .cross l r, h => by
    rw [CR_Wf_cross] at h; rw [CR_yield_cross]
    exact (CR.wbal l h.1).append (Bal.cons (NP.kw _) (Bal.cons (NP.kw _) (CR.wbal r h.2.1)))
  | .join l t r c, h => by
    rw [CR_Wf_join] at h; rw [CR_yield_join]
    exact (CR.wbal l h.1).append ((Bal.join t).append ((CR.wbal r h.2.1).append (CCrit.wbal c h.2.2)))
  | .natural l t r, h => by
    rw [CR_Wf_natural] at h; rw [CR_yield_natural]
    exact (CR.wbal l h.1).append (Bal.cons (NP.kw _) ((Bal.join t).append (CR.wbal r h.2.1)))
  | .sample r t e, h => by
    rw [CR_Wf_sample] at h; rw [CR_yield_sample]
    exact (CR.wbal r h.1).append (Bal.cons (NP.kw _) (Bal.cons (NP.kof h.2.2.1) (Bal.parens (CE.wbal e h.2.2.2))))
  | .alias r b n cols, h => by
    rw [CR_Wf_alias] at h; rw [CR_yield_alias]
    exact (CR.wbal r h.1).append (.append (.append (Bal.flag (Bal.one (NP.kw _))) (Bal.one (NP.ident h.2.2.1))) (Bal.columnsI h.2.2.2))
  | .table n, h => by rw [CR_Wf_table] at h; rw [CR_yield_table]; exact Bal.qnameI h.2
  | .sub q, h => by rw [CR_Wf_sub] at h; rw [CR_yield_sub]; exact Bal.parens (CQ.wbal q h)
  | .unnest es o, h => by
    rw [CR_Wf_unnest] at h; rw [CR_yield_unnest]
    exact Bal.cons (NP.kw _) (.append (Bal.parens (Bal.commas (CE.wbals es h.2))) (Bal.flag (Bal.cons (NP.kw _) (Bal.one (NP.kw _)))))
  | .lateral q, h => by
    rw [CR_Wf_lateral] at h; rw [CR_yield_lateral]; exact Bal.cons (NP.kw _) (Bal.parens (CQ.wbal q h))
  | .paren r, h => by rw [CR_Wf_paren] at h; rw [CR_yield_paren]; exact Bal.parens (CR.wbal r h)
theorem CR.wbals : ∀ es : List CR, CR.Wfs es → BalAll (CR.yields es)
  | [], _ => by rw [CR_yields_nil]; exact BalAll.nil
  | e :: es, h => by
    rw [CR_Wfs_cons] at h; rw [CR_yields_cons]; exact BalAll.cons (CR.wbal e h.1) (CR.wbals es h.2)
theorem CCrit.wbal : ∀ c : CCrit, c.Wf → Bal c.yield
  | .on e, h => by rw [CCrit_Wf_on] at h; rw [CCrit_yield_on]; exact Bal.cons (NP.kw _) (CE.wbal e h)
  | .using cols, h => by
    rw [CCrit_Wf_using] at h; rw [CCrit_yield_using]; exact Bal.cons (NP.kw _) (Bal.columnsI h.2)
end

end Treeno
