import Verif.Lemmas.Reads
/-!
# The parser returns derivations of the grammar
-/
set_option linter.unusedSimpArgs false
set_option linter.unnecessarySimpa false
namespace Treeno
open Spec

/-- What each part of the parser promises on success. -/
def Post (nt : NT) (ts : List Tok) (x : nt.Out × List Tok) : Prop := match nt, x with
  | .lv p, x => x.1.Wf ∧ p ≤ x.1.lvl ∧ Reads x.1.yield ts x.2
  | .loop p acc, x => acc.Wf → (if p = 3 then 4 else p) ≤ acc.lvl → (p = 7 → acc.isSign = false) →
      x.1.Wf ∧ p ≤ x.1.lvl ∧ ∃ ex, x.1.yield = acc.yield ++ ex ∧ Reads ex ts x.2
  | .exprs, x => x.1 ≠ [] ∧ CE.Wfs x.1 ∧ Reads (commas (CE.yields x.1)) ts x.2
  | .whens, x => x.1 ≠ [] ∧ CWhen.Wfs x.1 ∧ Reads (CWhen.yields x.1).flatten ts x.2
  | .sorts, x => x.1 ≠ [] ∧ CSort.Wfs x.1 ∧ Reads (commas (CSort.yields x.1)) ts x.2
  | .win, x => x.1.isSpec ∧ x.1.Wf ∧ ∃ ex, x.1.yield = symT (c% "(") :: ex ∧ Reads ex ts x.2
  | .query, x => x.1.Wf ∧ Reads x.1.yield ts x.2
  | .qnw, x => x.1.Wf ∧ Reads x.1.yield ts x.2
  | .qterm p, x => x.1.Wf ∧ p ≤ x.1.lvl ∧ Reads x.1.yield ts x.2
  | .qloop p acc, x => p ≤ 1 → acc.Wf → p ≤ acc.lvl →
      x.1.Wf ∧ p ≤ x.1.lvl ∧ ∃ ex, x.1.yield = acc.yield ++ ex ∧ Reads ex ts x.2
  | .items, x => x.1 ≠ [] ∧ CItem.Wfs x.1 ∧ Reads (commas (CItem.yields x.1)) ts x.2
  | .sets, x => x.1 ≠ [] ∧ CSet.Wfs x.1 ∧ Reads (commas (CSet.yields x.1)) ts x.2
  | .grps, x => x.1 ≠ [] ∧ CGrp.Wfs x.1 ∧ Reads (commas (CGrp.yields x.1)) ts x.2
  | .wdefs, x => x.1 ≠ [] ∧ CWinDef.Wfs x.1 ∧ Reads (commas (CWinDef.yields x.1)) ts x.2
  | .nameds, x => x.1 ≠ [] ∧ CNamed.Wfs x.1 ∧ Reads (commas (CNamed.yields x.1)) ts x.2
  | .rel, x => x.1.Wf ∧ Reads x.1.yield ts x.2
  | .relLoop acc, x => acc.Wf → x.1.Wf ∧ ∃ ex, x.1.yield = acc.yield ++ ex ∧ Reads ex ts x.2
  | .rels, x => x.1 ≠ [] ∧ CR.Wfs x.1 ∧ Reads (commas (CR.yields x.1)) ts x.2

/-- A family of parsers that only returns derivations. -/
def PSound (r : Rec) : Prop := ∀ nt ts x, r nt ts = some x → Post nt ts x

macro "inv" h:ident : tactic =>
  `(tactic| simp only [Option.bind_eq_bind, Option.bind_eq_some_iff, Option.some.injEq, Prod.mk.injEq, exists_eq_left] at $h:ident)

variable {r : Rec}

theorem lv_s (hr : PSound r) {p ts x} (h : r (.lv p) ts = some x) :
    x.1.Wf ∧ p ≤ x.1.lvl ∧ Reads x.1.yield ts x.2 := hr _ _ _ h
theorem loop_s (hr : PSound r) {p acc ts x} (h : r (.loop p acc) ts = some x) : acc.Wf →
    (if p = 3 then 4 else p) ≤ acc.lvl → (p = 7 → acc.isSign = false) →
      x.1.Wf ∧ p ≤ x.1.lvl ∧ ∃ ex, x.1.yield = acc.yield ++ ex ∧ Reads ex ts x.2 := hr _ _ _ h
theorem exprs_s (hr : PSound r) {ts x} (h : r .exprs ts = some x) :
    x.1 ≠ [] ∧ CE.Wfs x.1 ∧ Reads (commas (CE.yields x.1)) ts x.2 := hr _ _ _ h
theorem sorts_s (hr : PSound r) {ts x} (h : r .sorts ts = some x) :
    x.1 ≠ [] ∧ CSort.Wfs x.1 ∧ Reads (commas (CSort.yields x.1)) ts x.2 := hr _ _ _ h
theorem win_s (hr : PSound r) {ts x} (h : r .win ts = some x) :
    x.1.isSpec ∧ x.1.Wf ∧ ∃ ex, x.1.yield = symT (c% "(") :: ex ∧ Reads ex ts x.2 := hr _ _ _ h
theorem query_s (hr : PSound r) {ts x} (h : r .query ts = some x) :
    x.1.Wf ∧ Reads x.1.yield ts x.2 := hr _ _ _ h
theorem rel_s (hr : PSound r) {ts x} (h : r .rel ts = some x) :
    x.1.Wf ∧ Reads x.1.yield ts x.2 := hr _ _ _ h

theorem items_s (hr : PSound r) {ts x} (h : r .items ts = some x) :
    x.1 ≠ [] ∧ CItem.Wfs x.1 ∧ Reads (commas (CItem.yields x.1)) ts x.2 := hr _ _ _ h
theorem sets_s (hr : PSound r) {ts x} (h : r .sets ts = some x) :
    x.1 ≠ [] ∧ CSet.Wfs x.1 ∧ Reads (commas (CSet.yields x.1)) ts x.2 := hr _ _ _ h
theorem grps_s (hr : PSound r) {ts x} (h : r .grps ts = some x) :
    x.1 ≠ [] ∧ CGrp.Wfs x.1 ∧ Reads (commas (CGrp.yields x.1)) ts x.2 := hr _ _ _ h
theorem wdefs_s (hr : PSound r) {ts x} (h : r .wdefs ts = some x) :
    x.1 ≠ [] ∧ CWinDef.Wfs x.1 ∧ Reads (commas (CWinDef.yields x.1)) ts x.2 := hr _ _ _ h
theorem nameds_s (hr : PSound r) {ts x} (h : r .nameds ts = some x) :
    x.1 ≠ [] ∧ CNamed.Wfs x.1 ∧ Reads (commas (CNamed.yields x.1)) ts x.2 := hr _ _ _ h
theorem rels_s (hr : PSound r) {ts x} (h : r .rels ts = some x) :
    x.1 ≠ [] ∧ CR.Wfs x.1 ∧ Reads (commas (CR.yields x.1)) ts x.2 := hr _ _ _ h

theorem CE_yields_ne {es : List CE} (h : es ≠ []) : CE.yields es ≠ [] := by
  cases es with
  | nil => exact absurd rfl h
  | cons e es => rw [CE_yields_cons]; simp

theorem CSort_yields_ne {es : List CSort} (h : es ≠ []) : CSort.yields es ≠ [] := by
  cases es with
  | nil => exact absurd rfl h
  | cons e es => cases e; rw [CSort_yields_cons]; simp

theorem CItem_yields_ne {es : List CItem} (h : es ≠ []) : CItem.yields es ≠ [] := by
  cases es with
  | nil => exact absurd rfl h
  | cons e es => rw [CItem_yields_cons]; simp

theorem CSet_yields_ne {es : List CSet} (h : es ≠ []) : CSet.yields es ≠ [] := by
  cases es with
  | nil => exact absurd rfl h
  | cons e es => rw [CSet_yields_cons]; simp

theorem CGrp_yields_ne {es : List CGrp} (h : es ≠ []) : CGrp.yields es ≠ [] := by
  cases es with
  | nil => exact absurd rfl h
  | cons e es => rw [CGrp_yields_cons]; simp

theorem CWinDef_yields_ne {es : List CWinDef} (h : es ≠ []) : CWinDef.yields es ≠ [] := by
  cases es with
  | nil => exact absurd rfl h
  | cons e es => cases e; rw [CWinDef_yields_cons]; simp

theorem CNamed_yields_ne {es : List CNamed} (h : es ≠ []) : CNamed.yields es ≠ [] := by
  cases es with
  | nil => exact absurd rfl h
  | cons e es => cases e; rw [CNamed_yields_cons]; simp

theorem CR_yields_ne {es : List CR} (h : es ≠ []) : CR.yields es ≠ [] := by
  cases es with
  | nil => exact absurd rfl h
  | cons e es => rw [CR_yields_cons]; simp

theorem clause_ne {pre : List Tok} {xs : List (List Tok)} (h : xs ≠ []) : clause pre xs = pre ++ commas xs := by
  unfold clause
  rw [if_neg (by simpa using h)]

/-- A list of items separated by commas. -/
theorem pSep_s {α} {item : List Tok → Option (α × List Tok)} {more : List Tok → Option (List α × List Tok)}
    {W : α → Prop} {Y : α → List Tok} {Ws : List α → Prop} {Ys : List α → List (List Tok)}
    (hi : ∀ ts x, item ts = some x → W x.1 ∧ Reads (Y x.1) ts x.2)
    (hm : ∀ ts x, more ts = some x → x.1 ≠ [] ∧ Ws x.1 ∧ Reads (commas (Ys x.1)) ts x.2)
    (hn : Ws []) (hc : ∀ a as, W a → Ws as → Ws (a :: as)) (yn : Ys [] = [])
    (yc : ∀ a as, Ys (a :: as) = Y a :: Ys as)
    {ts : List Tok} {x} (h : pSep item more ts = some x) :
    x.1 ≠ [] ∧ Ws x.1 ∧ Reads (commas (Ys x.1)) ts x.2 := by
  unfold pSep at h
  inv h
  obtain ⟨p, h1, h2⟩ := h
  obtain ⟨a, b⟩ := hi _ _ h1
  split at h2
  · cases h2
    refine ⟨by simp, hc _ _ a hn, ?_⟩
    rw [yc, yn]
    exact b
  · next hk =>
    inv h2
    obtain ⟨q, h3, rfl⟩ := h2
    obtain ⟨c, d, e⟩ := hm _ _ h3
    refine ⟨by simp, hc _ _ a d, ?_⟩
    have : Ys q.1 ≠ [] := by
      obtain ⟨q1, q2⟩ := q
      cases q1 with
      | nil => exact absurd rfl c
      | cons y ys => rw [yc]; simp
    simp only
    rw [yc]
    unfold commas at e ⊢
    rw [sepBy_cons _ _ this]
    exact b.append ((sym_reads hk).append e)

theorem pArgs_s (hr : PSound r) {close : Str} {ts x} (h : pArgs r close ts = some x) :
    CE.Wfs x.1 ∧ Reads (commas (CE.yields x.1) ++ [symT close]) ts x.2 := by
  unfold pArgs at h
  split at h
  · next hk => cases h; exact ⟨trivial, sym_reads hk⟩
  · inv h
    obtain ⟨p, h1, u, h2, rfl⟩ := h
    obtain ⟨_, a, b⟩ := exprs_s hr h1
    exact ⟨a, b.append (sym_reads h2)⟩

theorem pSub_s (hr : PSound r) {ts x} (h : pSub r ts = some x) :
    x.1.Wf ∧ Reads (x.1.yield ++ [symT (c% ")")]) ts x.2 := by
  unfold pSub at h
  inv h
  obtain ⟨p, h1, u, h2, rfl⟩ := h
  obtain ⟨a, b⟩ := query_s hr h1
  exact ⟨a, b.append (sym_reads h2)⟩

theorem optExpr_s (hr : PSound r) {k : Str} {ts x} (h : optExpr r k ts = some x) :
    CE.WfOpt 0 x.1 ∧ Reads (optPart [kwT k] (CE.yieldOpt x.1)) ts x.2 := by
  unfold optExpr at h
  split at h
  · cases h; exact ⟨trivial, Reads.nil⟩
  · next hk =>
    inv h
    obtain ⟨p, h1, rfl⟩ := h
    obtain ⟨a, b, c⟩ := lv_s hr h1
    exact ⟨⟨a, b⟩, (kw_reads hk).append c⟩

theorem optOrder_s (hr : PSound r) {ts x} (h : optOrder r ts = some x) :
    CSort.Wfs x.1 ∧ Reads (orderPart (CSort.yields x.1)) ts x.2 := by
  unfold optOrder at h
  split at h
  · cases h; exact ⟨trivial, Reads.nil⟩
  · next hk =>
    inv h
    obtain ⟨u, h1, h2⟩ := h
    obtain ⟨a, b, c⟩ := sorts_s hr h2
    refine ⟨b, ?_⟩
    unfold orderPart
    rw [clause_ne (CSort_yields_ne a)]
    exact (kw_reads hk).append ((kw_reads h1).append c)

theorem optFilter_s (hr : PSound r) {ts x} (h : optFilter r ts = some x) :
    CE.WfOpt 0 x.1 ∧
      Reads (optIn [kwT (c% "FILTER"), symT (c% "("), kwT (c% "WHERE")] [symT (c% ")")] (CE.yieldOpt x.1)) ts x.2 := by
  unfold optFilter at h
  split at h
  · next hk =>
    inv h
    obtain ⟨u, h1, p, h2, v, h3, rfl⟩ := h
    obtain ⟨a, b, c⟩ := lv_s hr h2
    refine ⟨⟨a, b⟩, ?_⟩
    simpa [optIn, CE_yieldOpt_some] using
      (next2_ks hk).append ((kw_reads h1).append (c.append (sym_reads h3)))
  · cases h; exact ⟨trivial, Reads.nil⟩

theorem optOver_s (hr : PSound r) {ts x} (h : optOver r ts = some x) :
    CWin.WfOpt x.1 ∧ Reads (optPart [kwT (c% "OVER")] (CWin.yieldOpt x.1)) ts x.2 := by
  unfold optOver at h
  split at h
  · next hk =>
    inv h
    obtain ⟨u, h1, rfl⟩ := h
    obtain ⟨_, a, ex, e, b⟩ := win_s hr h1
    refine ⟨a, ?_⟩
    rw [CWin_yieldOpt_some, e]
    exact (next2_ks hk).append b
  split at h
  · next hk =>
    inv h
    obtain ⟨u, h1, rfl⟩ := h
    obtain ⟨a, b⟩ := pIdent_reads h1
    exact ⟨a, (next2_k1 hk).append b⟩
  · cases h; exact ⟨trivial, Reads.nil⟩

theorem optNullsOver_s (hr : PSound r) {ts x} (h : optNullsOver r ts = some x) :
    (x.1.1.isSome → x.1.2.isSome) ∧ CWin.WfOpt x.1.2 ∧
      Reads (nullsPart x.1.1 ++ optPart [kwT (c% "OVER")] (CWin.yieldOpt x.1.2)) ts x.2 := by
  unfold optNullsOver at h
  have hn := optNulls_reads ts
  split at h
  · next he =>
    inv h
    obtain ⟨p, h1, rfl⟩ := h
    obtain ⟨a, b⟩ := optOver_s hr h1
    rw [he] at hn
    exact ⟨by simp, a, hn.append b⟩
  · next he =>
    inv h
    obtain ⟨p, h1, h2⟩ := h
    split at h2
    · next hs =>
      cases h2
      obtain ⟨a, b⟩ := optOver_s hr h1
      rw [he] at hn
      exact ⟨fun _ => hs, a, hn.append b⟩
    · simp at h2

theorem starArgs_s {ts x} (h : starArgs ts = some x) :
    Opt Ident x.1 ∧ Reads (optIn [] [symT (c% ".")] (x.1.map fun x => [x]) ++ [symT (c% "*"), symT (c% ")")]) ts x.2 := by
  unfold starArgs at h
  split at h
  · split at h
    · next hc =>
      simp only [Bool.and_eq_true] at hc
      cases h
      exact ⟨Opt.none, Reads.cons (canon_sym (isSym_S hc.1)) (Reads.one (canon_sym (isSym_S hc.2)))⟩
    split at h
    · next hc =>
      simp only [Bool.and_eq_true] at hc
      cases h
      exact ⟨Opt.some (isIdent_Ident hc.1.1), Reads.cons rfl (Reads.cons (canon_sym (isSym_S hc.1.2)) (next2_ss hc.2))⟩
    · simp at h
  · simp at h

theorem callArgs_s (hr : PSound r) {q ts x} (h : callArgs r q ts = some x) :
    CE.Wfs x.1 ∧ (q.isSome → x.1 ≠ []) ∧ Reads (commas (CE.yields x.1)) ts x.2 := by
  unfold callArgs at h
  split at h
  · next hc =>
    cases h
    simp only [Bool.and_eq_true] at hc
    refine ⟨trivial, ?_, Reads.nil⟩
    cases q <;> simp_all
  · obtain ⟨a, b, c⟩ := exprs_s hr h
    exact ⟨b, fun _ => a, c⟩

theorem pCall_s (hr : PSound r) {n ts x} (hn : n ≠ []) (hi : Idents n) (h : pCall r n ts = some x) :
    x.1.Wf ∧ 8 ≤ x.1.lvl ∧ ∃ ex, x.1.yield = qname n ++ symT (c% "(") :: ex ∧ Reads ex ts x.2 := by
  unfold pCall at h
  split at h
  · next hs =>
    inv h
    obtain ⟨f, h1, o, h2, rfl⟩ := h
    obtain ⟨a, b⟩ := starArgs_s hs
    obtain ⟨c, d⟩ := optFilter_s hr h1
    obtain ⟨e, g⟩ := optOver_s hr h2
    refine ⟨?_, Nat.le_refl _, ?_⟩
    · rw [CE_Wf_callStar]; exact ⟨hn, hi, a, c, e⟩
    · rw [CE_yield_callStar]
      refine ⟨_, by simp only [inParens, List.cons_append, List.append_assoc]; rfl, ?_⟩
      simpa using b.append (d.append g)
  · inv h
    obtain ⟨a, h1, b, h2, u, h3, f, h4, o, h5, rfl⟩ := h
    obtain ⟨a1, a2, a3⟩ := callArgs_s hr h1
    obtain ⟨b1, b2⟩ := optOrder_s hr h2
    obtain ⟨f1, f2⟩ := optFilter_s hr h4
    obtain ⟨o1, o2, o3⟩ := optNullsOver_s hr h5
    have q := (optTok_reads Tok.isQuant ts).2
    refine ⟨?_, Nat.le_refl _, ?_⟩
    · rw [CE_Wf_call]; exact ⟨hn, hi, optTok_quant ts, a2, a1, b1, f1, o1, o2⟩
    · rw [CE_yield_call]
      refine ⟨_, by simp only [inParens, List.cons_append, List.append_assoc]; rfl, ?_⟩
      simpa using q.append (a3.append (b2.append ((sym_reads h3).append (f2.append o3))))

theorem pListAgg_s (hr : PSound r) {ts x} (h : pListAgg r ts = some x) :
    x.1.Wf ∧ 8 ≤ x.1.lvl ∧ ∃ ex, x.1.yield = kwT (c% "LISTAGG") :: ex ∧ Reads ex ts x.2 := by
  unfold pListAgg at h
  inv h
  obtain ⟨t1, h1, e, h2, s, h3, o, h4, t2, h5, t3, h6, t4, h7, t5, h8, t6, h9, t7, h10, b, h11, t8, h12, rfl⟩ := h
  obtain ⟨e1, _, e2⟩ := lv_s hr h2
  obtain ⟨s1, s2⟩ := optSep_reads h3
  obtain ⟨o1, o2⟩ := optOverflow_reads h4
  obtain ⟨b1, b2, b3⟩ := sorts_s hr h11
  have q := (optTok_reads Tok.isQuant t1).2
  refine ⟨?_, Nat.le_refl _, ?_⟩
  · rw [CE_Wf_listagg]; exact ⟨optTok_quant t1, e1, s1, o1, b1, b2⟩
  · rw [CE_yield_listagg]
    refine ⟨_, rfl, ?_⟩
    unfold orderPart
    rw [clause_ne (CSort_yields_ne b1)]
    simpa [inParens] using (sym_reads h1).append (q.append (e2.append (s2.append (o2.append ((sym_reads h5).append
      ((kw_reads h6).append ((kw_reads h7).append ((sym_reads h8).append ((kw_reads h9).append ((kw_reads h10).append
        (b3.append (sym_reads h12))))))))))))

theorem pInterval_s {ts x} (h : pInterval ts = some x) :
    x.1.Wf ∧ 8 ≤ x.1.lvl ∧ ∃ ex, x.1.yield = kwT (c% "INTERVAL") :: ex ∧ Reads ex ts x.2 := by
  unfold pInterval at h
  inv h
  obtain ⟨s, h1, f, h2, t, h3, rfl⟩ := h
  obtain ⟨s1, s2⟩ := pString_reads h1
  obtain ⟨f1, f2⟩ := pIvField_reads h2
  obtain ⟨t1, t2⟩ := pIvTo_reads h3
  obtain ⟨q1, q2⟩ := optTok_reads (Tok.isSymOf [c% "+", c% "-"]) ts
  refine ⟨?_, Nat.le_refl _, ?_⟩
  · rw [CE_Wf_interval]; exact ⟨fun t ht => isSymOf_Sof (q1 t ht), s1, f1, t1⟩
  · rw [CE_yield_interval]
    exact ⟨_, rfl, by simpa using q2.append (s2.append (f2.append t2))⟩

theorem caseOperand_s (hr : PSound r) {ts x} (h : caseOperand r ts = some x) :
    CE.WfOpt 0 x.1 ∧ Reads (optPart [] (CE.yieldOpt x.1)) ts x.2 := by
  unfold caseOperand at h
  split at h
  · cases h; exact ⟨trivial, Reads.nil⟩
  · inv h
    obtain ⟨p, h1, rfl⟩ := h
    obtain ⟨a, b, c⟩ := lv_s hr h1
    exact ⟨⟨a, b⟩, c⟩

theorem whens_s (hr : PSound r) {ts x} (h : r .whens ts = some x) :
    x.1 ≠ [] ∧ CWhen.Wfs x.1 ∧ Reads (CWhen.yields x.1).flatten ts x.2 := hr _ _ _ h

theorem pCase_s (hr : PSound r) {ts x} (h : pCase r ts = some x) :
    x.1.Wf ∧ 8 ≤ x.1.lvl ∧ ∃ ex, x.1.yield = kwT (c% "CASE") :: ex ∧ Reads ex ts x.2 := by
  unfold pCase at h
  inv h
  obtain ⟨v, h1, w, h2, e, h3, u, h4, rfl⟩ := h
  obtain ⟨v1, v2⟩ := caseOperand_s hr h1
  obtain ⟨w1, w2, w3⟩ := whens_s hr h2
  obtain ⟨e1, e2⟩ := optExpr_s hr h3
  refine ⟨?_, Nat.le_refl _, ?_⟩
  · rw [CE_Wf_case]; exact ⟨v1, w1, w2, e1⟩
  · rw [CE_yield_case]
    exact ⟨_, rfl, v2.append (w3.append (e2.append (kw_reads h4)))⟩

theorem pCast_s (hr : PSound r) {b : Bool} {ts x} (h : pCast r b ts = some x) :
    x.1.Wf ∧ 8 ≤ x.1.lvl ∧
      ∃ ex, x.1.yield = kwT (if b then c% "TRY_CAST" else c% "CAST") :: ex ∧ Reads ex ts x.2 := by
  unfold pCast at h
  inv h
  obtain ⟨u, h1, e, h2, v, h3, t, h4, w, h5, rfl⟩ := h
  obtain ⟨e1, _, e2⟩ := lv_s hr h2
  obtain ⟨t1, t2⟩ := pType_reads h4
  refine ⟨?_, Nat.le_refl _, ?_⟩
  · rw [CE_Wf_cast]; exact ⟨e1, t1⟩
  · rw [CE_yield_cast]
    refine ⟨_, rfl, ?_⟩
    simpa [inParens] using (sym_reads h1).append (e2.append ((kw_reads h3).append (t2.append (sym_reads h5))))

theorem pNormalize_s (hr : PSound r) {ts x} (h : pNormalize r ts = some x) :
    x.1.Wf ∧ 8 ≤ x.1.lvl ∧ ∃ ex, x.1.yield = kwT (c% "NORMALIZE") :: ex ∧ Reads ex ts x.2 := by
  unfold pNormalize at h
  inv h
  obtain ⟨u, h1, e, h2, f, h3, v, h4, rfl⟩ := h
  obtain ⟨e1, e0, e2⟩ := lv_s hr h2
  obtain ⟨f1, f2⟩ := optForm_reads h3
  refine ⟨?_, Nat.le_refl _, ?_⟩
  · rw [CE_Wf_normalize]; exact ⟨e1, e0, f1⟩
  · rw [CE_yield_normalize]
    refine ⟨_, rfl, ?_⟩
    simpa [inParens] using (sym_reads h1).append (e2.append (f2.append (sym_reads h4)))

theorem pExists_s (hr : PSound r) {ts x} (h : pExists r ts = some x) :
    x.1.Wf ∧ 8 ≤ x.1.lvl ∧ ∃ ex, x.1.yield = kwT (c% "EXISTS") :: ex ∧ Reads ex ts x.2 := by
  unfold pExists at h
  inv h
  obtain ⟨u, h1, q, h2, rfl⟩ := h
  obtain ⟨a, b⟩ := pSub_s hr h2
  refine ⟨?_, Nat.le_refl _, ?_⟩
  · rw [CE_Wf_exists_]; exact a
  · rw [CE_yield_exists_]
    exact ⟨_, rfl, (sym_reads h1).append b⟩

theorem pPosition_s (hr : PSound r) {ts x} (h : pPosition r ts = some x) :
    x.1.Wf ∧ 8 ≤ x.1.lvl ∧ ∃ ex, x.1.yield = kwT (c% "POSITION") :: ex ∧ Reads ex ts x.2 := by
  unfold pPosition at h
  inv h
  obtain ⟨u, h1, a, h2, v, h3, b, h4, w, h5, rfl⟩ := h
  obtain ⟨a1, a0, a2⟩ := lv_s hr h2
  obtain ⟨b1, b0, b2⟩ := lv_s hr h4
  refine ⟨?_, Nat.le_refl _, ?_⟩
  · rw [CE_Wf_position]; exact ⟨a1, a0, b1, b0⟩
  · rw [CE_yield_position]
    refine ⟨_, rfl, ?_⟩
    simpa [inParens] using (sym_reads h1).append (a2.append ((kw_reads h3).append (b2.append (sym_reads h5))))

theorem optValue_s (hr : PSound r) {k : Str} {ts x} (h : optValue r k ts = some x) :
    CE.WfOpt 4 x.1 ∧ Reads (optPart [kwT k] (CE.yieldOpt x.1)) ts x.2 := by
  unfold optValue at h
  split at h
  · cases h; exact ⟨trivial, Reads.nil⟩
  · next hk =>
    inv h
    obtain ⟨p, h1, rfl⟩ := h
    obtain ⟨a, b, c⟩ := lv_s hr h1
    exact ⟨⟨a, b⟩, (kw_reads hk).append c⟩

theorem optComma_s (hr : PSound r) {ts x} (h : optComma r ts = some x) :
    CE.WfOpt 4 x.1 ∧ Reads (optPart [symT (c% ",")] (CE.yieldOpt x.1)) ts x.2 := by
  unfold optComma at h
  split at h
  · cases h; exact ⟨trivial, Reads.nil⟩
  · next hk =>
    inv h
    obtain ⟨p, h1, rfl⟩ := h
    obtain ⟨a, b, c⟩ := lv_s hr h1
    exact ⟨⟨a, b⟩, (sym_reads hk).append c⟩

theorem trimChar_s (hr : PSound r) {ts x} (h : trimChar r ts = some x) :
    CE.WfOpt 4 x.1 ∧ Reads (optPart [] (CE.yieldOpt x.1)) ts x.2 := by
  unfold trimChar at h
  split at h
  · cases h; exact ⟨trivial, Reads.nil⟩
  · inv h
    obtain ⟨p, h1, rfl⟩ := h
    obtain ⟨a, b, c⟩ := lv_s hr h1
    exact ⟨⟨a, b⟩, c⟩

theorem pSubstring_s (hr : PSound r) {ts x} (h : pSubstring r ts = some x) :
    x.1.Wf ∧ 8 ≤ x.1.lvl ∧ ∃ ex, x.1.yield = kwT (c% "SUBSTRING") :: ex ∧ Reads ex ts x.2 := by
  unfold pSubstring at h
  inv h
  obtain ⟨u, h1, a, h2, v, h3, b, h4, n, h6, w, h5, rfl⟩ := h
  obtain ⟨a1, a0, a2⟩ := lv_s hr h2
  obtain ⟨b1, b0, b2⟩ := lv_s hr h4
  obtain ⟨n1, n2⟩ := optValue_s hr h6
  refine ⟨?_, Nat.le_refl _, ?_⟩
  · rw [CE_Wf_substring]; exact ⟨a1, a0, b1, b0, n1⟩
  · rw [CE_yield_substring]
    refine ⟨_, rfl, ?_⟩
    simpa [inParens] using (sym_reads h1).append (a2.append ((kw_reads h3).append (b2.append (n2.append (sym_reads h5)))))

theorem pExtract_s (hr : PSound r) {ts x} (h : pExtract r ts = some x) :
    x.1.Wf ∧ 8 ≤ x.1.lvl ∧ ∃ ex, x.1.yield = kwT (c% "EXTRACT") :: ex ∧ Reads ex ts x.2 := by
  unfold pExtract at h
  inv h
  obtain ⟨u, h1, a, h2, v, h3, b, h4, w, h5, rfl⟩ := h
  obtain ⟨a1, a2⟩ := pIdent_reads h2
  obtain ⟨b1, b0, b2⟩ := lv_s hr h4
  refine ⟨?_, Nat.le_refl _, ?_⟩
  · rw [CE_Wf_extract]; exact ⟨a1, b1, b0⟩
  · rw [CE_yield_extract]
    refine ⟨_, rfl, ?_⟩
    simpa [inParens] using (sym_reads h1).append (a2.append ((kw_reads h3).append (b2.append (sym_reads h5))))

theorem pTrim_s (hr : PSound r) {ts x} (h : pTrim r ts = some x) :
    x.1.Wf ∧ 8 ≤ x.1.lvl ∧ ∃ ex, x.1.yield = kwT (c% "TRIM") :: ex ∧ Reads ex ts x.2 := by
  unfold pTrim at h
  simp only [Option.bind_eq_bind, Option.bind_eq_some_iff] at h
  obtain ⟨u, h1, c, h2, h⟩ := h
  obtain ⟨s1, s2⟩ := optTok_reads Tok.isTrim u
  obtain ⟨c1, c2⟩ := trimChar_s hr h2
  split at h
  · next hk =>
    inv h
    obtain ⟨e, h3, v, h4, rfl⟩ := h
    obtain ⟨e1, e0, e2⟩ := lv_s hr h3
    refine ⟨?_, Nat.le_refl _, ?_⟩
    · rw [CE_Wf_trimFrom]; exact ⟨fun t ht => isKwOf_Kof (s1 t ht), c1, e1, e0⟩
    · rw [CE_yield_trimFrom]
      refine ⟨_, rfl, ?_⟩
      simpa [inParens] using (sym_reads h1).append (s2.append (c2.append ((nextKw_reads hk).append (e2.append (sym_reads h4)))))
  · unfold trimPlain at h
    split at h
    · next e hs hc =>
      inv h
      obtain ⟨a, h3, v, h4, rfl⟩ := h
      obtain ⟨a1, a2⟩ := optComma_s hr h3
      rw [hc] at c1 c2
      rw [hs] at s2
      refine ⟨?_, Nat.le_refl _, ?_⟩
      · rw [CE_Wf_trim]; exact ⟨c1.1, c1.2, a1⟩
      · rw [CE_yield_trim]
        refine ⟨_, rfl, ?_⟩
        have c2' : Reads e.yield _ c.2 := c2
        simpa [inParens] using (sym_reads h1).append (s2.append (c2'.append (a2.append (sym_reads h4))))
    · simp at h

theorem pGrouping_s {ts x} (h : pGrouping ts = some x) :
    x.1.Wf ∧ 8 ≤ x.1.lvl ∧ ∃ ex, x.1.yield = kwT (c% "GROUPING") :: ex ∧ Reads ex ts x.2 := by
  unfold pGrouping at h
  simp only [Option.bind_eq_bind, Option.bind_eq_some_iff] at h
  obtain ⟨u, h1, h⟩ := h
  split at h
  · next hk =>
    cases h
    refine ⟨?_, Nat.le_refl _, ?_⟩
    · rw [CE_Wf_grouping]; exact fun n hn => nomatch hn
    · rw [CE_yield_grouping]
      exact ⟨_, rfl, (sym_reads h1).append (sym_reads hk)⟩
  · inv h
    obtain ⟨n, h2, v, h3, rfl⟩ := h
    obtain ⟨_, n1, n2⟩ := pQNames_reads _ h2
    refine ⟨?_, Nat.le_refl _, ?_⟩
    · rw [CE_Wf_grouping]; exact n1
    · rw [CE_yield_grouping]
      exact ⟨_, rfl, (sym_reads h1).append (n2.append (sym_reads h3))⟩

theorem pParen_s (hr : PSound r) {ts x} (h : pParen r ts = some x) :
    x.1.Wf ∧ 8 ≤ x.1.lvl ∧ ∃ ex, x.1.yield = symT (c% "(") :: ex ∧ Reads ex ts x.2 := by
  unfold pParen at h
  split at h
  · next hl =>
    inv h
    obtain ⟨b, h1, rfl⟩ := h
    obtain ⟨a1, a2⟩ := lamHead_reads hl
    obtain ⟨b1, _, b2⟩ := lv_s hr h1
    refine ⟨?_, Nat.le_refl _, ?_⟩
    · rw [CE_Wf_lam]; exact ⟨a1, fun h => Bool.noConfusion h, b1⟩
    · rw [CE_yield_lam]
      refine ⟨_, rfl, ?_⟩
      simpa using a2.append b2
  split at h
  · inv h
    obtain ⟨q, h1, rfl⟩ := h
    obtain ⟨a1, a2⟩ := pSub_s hr h1
    refine ⟨?_, Nat.le_refl _, ?_⟩
    · rw [CE_Wf_sub]; exact a1
    · rw [CE_yield_sub]
      exact ⟨_, rfl, a2⟩
  · inv h
    obtain ⟨es, h1, u, h2, rfl⟩ := h
    obtain ⟨a, b, c⟩ := exprs_s hr h1
    have hc := c.append (sym_reads h2)
    obtain ⟨es, v⟩ := es
    match es, a with
    | [e], _ =>
      refine ⟨?_, Nat.le_refl _, ?_⟩
      · change (CE.paren e).Wf
        rw [CE_Wf_paren]
        rw [CE_Wfs_cons] at b; exact b.1
      · change ∃ ex, (CE.paren e).yield = _ ∧ _
        rw [CE_yield_paren]
        exact ⟨_, rfl, hc⟩
    | e :: e' :: es, _ =>
      refine ⟨?_, Nat.le_refl _, ?_⟩
      · change (CE.row _).Wf
        rw [CE_Wf_row]
        exact ⟨by simp, b⟩
      · change ∃ ex, (CE.row _).yield = _ ∧ _
        rw [CE_yield_row]
        exact ⟨_, rfl, hc⟩

theorem pName_s (hr : PSound r) {t ts x} (ht : t.isIdent = true) (h : pName r t ts = some x) :
    x.1.Wf ∧ 8 ≤ x.1.lvl ∧ Reads x.1.yield (t :: ts) x.2 := by
  unfold pName at h
  split at h
  · inv h
    obtain ⟨s, h1, rfl⟩ := h
    obtain ⟨a, b⟩ := pString_reads h1
    refine ⟨?_, Nat.le_refl _, ?_⟩
    · rw [CE_Wf_typeCtor]; exact ⟨isIdent_Ident ht, a⟩
    · rw [CE_yield_typeCtor]; exact Reads.cons rfl b
  split at h
  · next hk =>
    inv h
    obtain ⟨s, h1, rfl⟩ := h
    obtain ⟨a, _, b⟩ := lv_s hr h1
    refine ⟨?_, Nat.le_refl _, ?_⟩
    · rw [CE_Wf_lam]
      exact ⟨by intro u hu; simp at hu; rw [hu]; exact isIdent_Ident ht, fun _ => rfl, a⟩
    · rw [CE_yield_lam]
      exact Reads.cons rfl ((nextSym_reads hk).append b)
  · inv h
    obtain ⟨n, h1, h2⟩ := h
    obtain ⟨a, b, c⟩ := pQName_reads _ h1
    split at h2
    · next hk =>
      obtain ⟨p, q, ex, e, s⟩ := pCall_s hr a b h2
      refine ⟨p, q, ?_⟩
      rw [e]
      exact c.append ((nextSym_reads hk).append s)
    · cases h2
      refine ⟨?_, Nat.le_refl _, ?_⟩
      · rw [CE_Wf_col]; exact isIdent_Ident ht
      · rw [CE_yield_col]; exact Reads.tok

/-- A conditional that produced something produced it in one of its branches. -/
theorem ite_elim {α} {c : Prop} [Decidable c] {a b : Option α} {x : α} {Q : Prop}
    (h : (if c then a else b) = some x) (h1 : c → a = some x → Q) (h2 : ¬ c → b = some x → Q) : Q := by
  by_cases hc : c
  · rw [if_pos hc] at h; exact h1 hc h
  · rw [if_neg hc] at h; exact h2 hc h

theorem pPrimary_s (hr : PSound r) {t ts x} (h : pPrimary r t ts = some x) :
    x.1.Wf ∧ 8 ≤ x.1.lvl ∧ Reads x.1.yield (t :: ts) x.2 := by
  unfold pPrimary at h
  refine ite_elim h (fun hc h => ?_) (fun _ h => ?_)
  ·
    obtain ⟨p, q, ex, e, s⟩ := pParen_s hr h
    exact ⟨p, q, by rw [e]; exact Reads.cons (canon_sym (isSym_S hc)) s⟩
  refine ite_elim h (fun hc h => ?_) (fun _ h => ?_)
  ·
    cases h
    exact ⟨trivial, Nat.le_refl _, Reads.one (canon_sym (isSym_S hc))⟩
  refine ite_elim h (fun hc h => ?_) (fun _ h => ?_)
  ·
    inv h
    obtain ⟨n, h1, rfl⟩ := h
    obtain ⟨a, b⟩ := tokIf_reads h1
    refine ⟨?_, Nat.le_refl _, ?_⟩
    · rw [CE_Wf_num]; exact isNum_Num a
    · rw [CE_yield_num]; exact Reads.cons (canon_sym (isSym_S hc)) b
  refine ite_elim h (fun hc h => ?_) (fun _ h => ?_)
  ·
    cases h
    refine ⟨?_, Nat.le_refl _, Reads.tok⟩
    rw [CE_Wf_num]; exact isNum_Num hc
  refine ite_elim h (fun hc h => ?_) (fun _ h => ?_)
  · inv h
    obtain ⟨s, h1, rfl⟩ := h
    obtain ⟨a, b⟩ := pString_reads h1
    refine ⟨?_, Nat.le_refl _, ?_⟩
    · rw [CE_Wf_str]; exact a
    · rw [CE_yield_str]; exact b
  refine ite_elim h (fun hc h => ?_) (fun _ h => ?_)
  ·
    cases h
    refine ⟨?_, Nat.le_refl _, Reads.tok⟩
    rw [CE_Wf_binary]; simpa using hc
  refine ite_elim h (fun hc h => ?_) (fun _ h => ?_)
  ·
    cases h
    exact ⟨trivial, Nat.le_refl _, Reads.one (canon_kw (isKw_K hc))⟩
  refine ite_elim h (fun hc h => ?_) (fun _ h => ?_)
  ·
    cases h
    refine ⟨?_, Nat.le_refl _, Reads.tok⟩
    rw [CE_Wf_bool]; exact isKwOf_Kof hc
  refine ite_elim h (fun hc h => ?_) (fun _ h => ?_)
  ·
    obtain ⟨p, q, ex, e, s⟩ := pCase_s hr h
    exact ⟨p, q, by rw [e]; exact Reads.cons (canon_kw (isKw_K hc)) s⟩
  refine ite_elim h (fun hc h => ?_) (fun _ h => ?_)
  ·
    obtain ⟨p, q, ex, e, s⟩ := pCast_s hr h
    exact ⟨p, q, by rw [e]; exact Reads.cons (canon_kw (isKw_K hc)) s⟩
  refine ite_elim h (fun hc h => ?_) (fun _ h => ?_)
  ·
    simp only [Bool.and_eq_true] at hc
    obtain ⟨p, q, ex, e, s⟩ := pCast_s hr h
    exact ⟨p, q, by rw [e]; exact Reads.cons (canon_kw (isKw_K hc.1)) s⟩
  refine ite_elim h (fun hc h => ?_) (fun _ h => ?_)
  ·
    simp only [Bool.and_eq_true] at hc
    inv h
    obtain ⟨es, h1, rfl⟩ := h
    obtain ⟨a, b⟩ := pArgs_s hr h1
    refine ⟨?_, Nat.le_refl _, ?_⟩
    · rw [CE_Wf_array]; exact a
    · rw [CE_yield_array]
      exact Reads.cons (canon_kw (isKw_K hc.1)) ((nextSym_reads hc.2).append b)
  refine ite_elim h (fun hc h => ?_) (fun _ h => ?_)
  ·
    simp only [Bool.and_eq_true] at hc
    inv h
    obtain ⟨es, h1, u, h2, rfl⟩ := h
    obtain ⟨a, b, c⟩ := exprs_s hr h1
    refine ⟨?_, Nat.le_refl _, ?_⟩
    · rw [CE_Wf_rowKw]; exact ⟨a, b⟩
    · rw [CE_yield_rowKw]
      exact Reads.cons (canon_kw (isKw_K hc.1)) ((nextSym_reads hc.2).append (c.append (sym_reads h2)))
  refine ite_elim h (fun hc h => ?_) (fun _ h => ?_)
  ·
    simp only [Bool.and_eq_true] at hc
    obtain ⟨p, q, ex, e, s⟩ := pInterval_s h
    exact ⟨p, q, by rw [e]; exact Reads.cons (canon_kw (isKw_K hc.1)) s⟩
  refine ite_elim h (fun hc h => ?_) (fun _ h => ?_)
  ·
    simp only [Bool.and_eq_true] at hc
    inv h
    obtain ⟨s, h1, rfl⟩ := h
    obtain ⟨a, b⟩ := pString_reads h1
    refine ⟨?_, Nat.le_refl _, ?_⟩
    · rw [CE_Wf_doublePrecision]; exact a
    · rw [CE_yield_doublePrecision]
      exact Reads.cons (canon_kw (isKw_K hc.1)) ((nextKw_reads hc.2).append b)
  refine ite_elim h (fun hc h => ?_) (fun _ h => ?_)
  ·
    obtain ⟨p, q, ex, e, s⟩ := pListAgg_s hr h
    exact ⟨p, q, by rw [e]; exact Reads.cons (canon_kw (isKw_K hc)) s⟩
  refine ite_elim h (fun hc h => ?_) (fun _ h => ?_)
  ·
    cases h
    refine ⟨?_, Nat.le_refl _, Reads.tok⟩
    rw [CE_Wf_dateTime]; exact .inl ⟨isKw_K hc, rfl⟩
  refine ite_elim h (fun hc h => ?_) (fun _ h => ?_)
  ·
    inv h
    obtain ⟨p, h1, rfl⟩ := h
    obtain ⟨a, b⟩ := optPrec_reads h1
    refine ⟨?_, Nat.le_refl _, ?_⟩
    · rw [CE_Wf_dateTime]; exact .inr ⟨isKwOf_Kof hc, a⟩
    · rw [CE_yield_dateTime]; exact Reads.cons rfl b
  refine ite_elim h (fun hc h => ?_) (fun _ h => ?_)
  ·
    cases h
    refine ⟨?_, Nat.le_refl _, Reads.tok⟩
    rw [CE_Wf_session]; exact isKwOf_Kof hc
  refine ite_elim h (fun hc h => ?_) (fun _ h => ?_)
  ·
    obtain ⟨p, q, ex, e, s⟩ := pNormalize_s hr h
    exact ⟨p, q, by rw [e]; exact Reads.cons (canon_kw (isKw_K hc)) s⟩
  refine ite_elim h (fun hc h => ?_) (fun _ h => ?_)
  ·
    obtain ⟨p, q, ex, e, s⟩ := pExists_s hr h
    exact ⟨p, q, by rw [e]; exact Reads.cons (canon_kw (isKw_K hc)) s⟩
  refine ite_elim h (fun hc h => ?_) (fun _ h => ?_)
  ·
    simp only [Bool.and_eq_true] at hc
    obtain ⟨p, q, ex, e, s⟩ := pPosition_s hr h
    exact ⟨p, q, by rw [e]; exact Reads.cons (canon_kw (isKw_K hc.1)) s⟩
  refine ite_elim h (fun hc h => ?_) (fun _ h => ?_)
  ·
    simp only [Bool.and_eq_true] at hc
    obtain ⟨p, q, ex, e, s⟩ := pSubstring_s hr h
    exact ⟨p, q, by rw [e]; exact Reads.cons (canon_kw (isKw_K hc.1)) s⟩
  refine ite_elim h (fun hc h => ?_) (fun _ h => ?_)
  ·
    obtain ⟨p, q, ex, e, s⟩ := pExtract_s hr h
    exact ⟨p, q, by rw [e]; exact Reads.cons (canon_kw (isKw_K hc)) s⟩
  refine ite_elim h (fun hc h => ?_) (fun _ h => ?_)
  ·
    obtain ⟨p, q, ex, e, s⟩ := pTrim_s hr h
    exact ⟨p, q, by rw [e]; exact Reads.cons (canon_kw (isKw_K hc)) s⟩
  refine ite_elim h (fun hc h => ?_) (fun _ h => ?_)
  ·
    obtain ⟨p, q, ex, e, s⟩ := pGrouping_s h
    exact ⟨p, q, by rw [e]; exact Reads.cons (canon_kw (isKw_K hc)) s⟩
  refine ite_elim h (fun hc h => ?_) (fun _ h => ?_)
  · exact pName_s hr hc h
  · simp at h

theorem pPostfix_s (hr : PSound r) {acc ts x} (hw : acc.Wf) (hl : 8 ≤ acc.lvl) (h : pPostfix r acc ts = some x) :
    x.1.Wf ∧ 8 ≤ x.1.lvl ∧ ∃ ex, x.1.yield = acc.yield ++ ex ∧ Reads ex ts x.2 := by
  unfold pPostfix at h
  split at h
  · next hk =>
    inv h
    obtain ⟨i, h1, u, h2, h3⟩ := h
    obtain ⟨i1, i2, i3⟩ := lv_s hr h1
    obtain ⟨a, b, ex, e, c⟩ := loop_s hr h3 (by rw [CE_Wf_subscript]; exact ⟨hw, hl, i1, i2⟩) (Nat.le_refl _) nofun
    refine ⟨a, b, _, by rw [e, CE_yield_subscript]; simp only [List.append_assoc, List.cons_append]; rfl, ?_⟩
    simpa using (nextSym_reads hk).append (i3.append ((sym_reads h2).append c))
  split at h
  · next hk =>
    inv h
    obtain ⟨n, h1, h3⟩ := h
    obtain ⟨n1, n2⟩ := pIdent_reads h1
    obtain ⟨a, b, ex, e, c⟩ := loop_s hr h3 (by rw [CE_Wf_deref]; exact ⟨hw, hl, n1⟩) (Nat.le_refl _) nofun
    refine ⟨a, b, _, by rw [e, CE_yield_deref]; simp only [List.append_assoc, List.cons_append]; rfl, ?_⟩
    simpa using (next2_s1 hk).append (n2.append c)
  · cases h
    exact ⟨hw, hl, [], by simp, Reads.nil⟩

theorem pZoneSpec_s {ts x} (h : pZoneSpec ts = some x) : x.1.Wf ∧ x.1.isZone = true ∧ Reads x.1.yield ts x.2 := by
  unfold pZoneSpec at h
  split at h
  · next hk =>
    obtain ⟨a, b, ex, e, c⟩ := pInterval_s h
    refine ⟨a, ?_, by rw [e]; exact (nextKw_reads hk).append c⟩
    unfold pInterval at h
    inv h
    obtain ⟨s, h1, f, h2, t, h3, rfl⟩ := h
    rfl
  · inv h
    obtain ⟨s, h1, rfl⟩ := h
    obtain ⟨s1, s2⟩ := pString_reads h1
    exact ⟨by rw [CE_Wf_str]; exact s1, rfl, by rw [CE_yield_str]; exact s2⟩

theorem pAt_s (hr : PSound r) {acc ts x} (hw : acc.Wf) (hl : 7 ≤ acc.lvl) (hs : acc.isSign = false) (h : pAt r acc ts = some x) :
    x.1.Wf ∧ 7 ≤ x.1.lvl ∧ ∃ ex, x.1.yield = acc.yield ++ ex ∧ Reads ex ts x.2 := by
  unfold pAt at h
  split at h
  · inv h
    obtain ⟨u1, h1, u2, h2, u3, h3, z, h4, h5⟩ := h
    obtain ⟨z1, z2, z3⟩ := pZoneSpec_s h4
    obtain ⟨a, b, ex, e, c⟩ := loop_s hr h5 (by rw [CE_Wf_atZone]; exact ⟨hw, hl, hs, z1, z2⟩) (Nat.le_refl _) (fun _ => rfl)
    refine ⟨a, b, _, by rw [e, CE_yield_atZone]; simp only [List.append_assoc, List.cons_append]; rfl, ?_⟩
    simpa using (kw_reads h1).append ((kw_reads h2).append ((kw_reads h3).append (z3.append c)))
  · cases h
    exact ⟨hw, hl, [], by simp, Reads.nil⟩

theorem optEscape_s (hr : PSound r) {ts x} (h : optEscape r ts = some x) :
    CE.WfOpt 4 x.1 ∧ Reads (optPart [kwT (c% "ESCAPE")] (CE.yieldOpt x.1)) ts x.2 := by
  unfold optEscape at h
  split at h
  · cases h; exact ⟨trivial, Reads.nil⟩
  · next hk =>
    inv h
    obtain ⟨p, h1, rfl⟩ := h
    obtain ⟨a, b, c⟩ := lv_s hr h1
    exact ⟨⟨a, b⟩, (kw_reads hk).append c⟩

theorem pNegatable_s (hr : PSound r) {acc neg t ts x} (hw : acc.Wf) (hl : 4 ≤ acc.lvl)
    (h : pNegatable r acc neg t ts = some x) :
    x.1.Wf ∧ 3 ≤ x.1.lvl ∧ ∃ ex, x.1.yield = acc.yield ++ (flag neg [kwT (c% "NOT")] ++ ex) ∧ Reads ex (t :: ts) x.2 := by
  unfold pNegatable at h
  split at h
  · next hk =>
    inv h
    obtain ⟨l, h1, u, h2, v, h3, rfl⟩ := h
    obtain ⟨l1, l2, l3⟩ := lv_s hr h1
    obtain ⟨v1, v2, v3⟩ := lv_s hr h3
    refine ⟨?_, Nat.le_refl _, ?_⟩
    · rw [CE_Wf_between]; exact ⟨hw, hl, l1, l2, v1, v2⟩
    · rw [CE_yield_between]
      refine ⟨_, rfl, ?_⟩
      exact Reads.cons (canon_kw (isKw_K hk)) (l3.append ((kw_reads h2).append v3))
  split at h
  · next hk =>
    inv h
    obtain ⟨u, h1, h2⟩ := h
    split at h2
    · inv h2
      obtain ⟨q, h3, rfl⟩ := h2
      obtain ⟨a, b⟩ := pSub_s hr h3
      refine ⟨?_, Nat.le_refl _, ?_⟩
      · rw [CE_Wf_inSub]; exact ⟨hw, hl, a⟩
      · rw [CE_yield_inSub]
        exact ⟨_, rfl, Reads.cons (canon_kw (isKw_K hk)) ((sym_reads h1).append b)⟩
    · inv h2
      obtain ⟨q, h3, v, h4, rfl⟩ := h2
      obtain ⟨a, b, c⟩ := exprs_s hr h3
      refine ⟨?_, Nat.le_refl _, ?_⟩
      · rw [CE_Wf_inList]; exact ⟨hw, hl, a, b⟩
      · rw [CE_yield_inList]
        exact ⟨_, rfl, Reads.cons (canon_kw (isKw_K hk)) ((sym_reads h1).append (c.append (sym_reads h4)))⟩
  split at h
  · next hk =>
    inv h
    obtain ⟨p, h1, e, h2, rfl⟩ := h
    obtain ⟨p1, p2, p3⟩ := lv_s hr h1
    obtain ⟨e1, e2⟩ := optEscape_s hr h2
    refine ⟨?_, Nat.le_refl _, ?_⟩
    · rw [CE_Wf_like]; exact ⟨hw, hl, p1, p2, e1⟩
    · rw [CE_yield_like]
      exact ⟨_, rfl, Reads.cons (canon_kw (isKw_K hk)) (p3.append e2)⟩
  · simp at h

theorem pIs_s (hr : PSound r) {acc ts x} (hw : acc.Wf) (hl : 4 ≤ acc.lvl) (h : pIs r acc ts = some x) :
    x.1.Wf ∧ 3 ≤ x.1.lvl ∧ ∃ ex, x.1.yield = acc.yield ++ kwT (c% "IS") :: ex ∧ Reads ex ts x.2 := by
  unfold pIs at h
  have ho := optKw_reads (c% "NOT") ts
  split at h
  · next hk =>
    cases h
    refine ⟨?_, Nat.le_refl _, ?_⟩
    · rw [CE_Wf_isNull]; exact ⟨hw, hl⟩
    · rw [CE_yield_isNull]
      exact ⟨_, rfl, ho.append (kw_reads hk)⟩
  · inv h
    obtain ⟨u, h1, v, h2, e, h3, rfl⟩ := h
    obtain ⟨e1, e2, e3⟩ := lv_s hr h3
    refine ⟨?_, Nat.le_refl _, ?_⟩
    · rw [CE_Wf_distinct]; exact ⟨hw, hl, e1, e2⟩
    · rw [CE_yield_distinct]
      exact ⟨_, rfl, ho.append ((kw_reads h1).append ((kw_reads h2).append e3))⟩

theorem pCompared_s (hr : PSound r) {acc t ts x} (hw : acc.Wf) (hl : 4 ≤ acc.lvl) (hc : t.isCmp = true)
    (h : pCompared r acc t ts = some x) :
    x.1.Wf ∧ 3 ≤ x.1.lvl ∧ ∃ ex, x.1.yield = acc.yield ++ ex ∧ Reads ex (t :: ts) x.2 := by
  unfold pCompared at h
  split at h
  · inv h
    obtain ⟨k, h1, u, h2, q, h3, rfl⟩ := h
    obtain ⟨k1, k2⟩ := tokIf_reads h1
    obtain ⟨a, b⟩ := pSub_s hr h3
    refine ⟨?_, Nat.le_refl _, ?_⟩
    · rw [CE_Wf_quantified]; exact ⟨isSymOf_Sof hc, isKwOf_Kof k1, hw, hl, a⟩
    · rw [CE_yield_quantified]
      exact ⟨_, rfl, Reads.cons rfl (k2.append ((sym_reads h2).append b))⟩
  · inv h
    obtain ⟨e, h3, rfl⟩ := h
    obtain ⟨e1, e2, e3⟩ := lv_s hr h3
    refine ⟨?_, Nat.le_refl _, ?_⟩
    · rw [CE_Wf_cmp]; exact ⟨isSymOf_Sof hc, hw, hl, e1, e2⟩
    · rw [CE_yield_cmp]
      exact ⟨_, rfl, Reads.cons rfl e3⟩

theorem pPredicate_s (hr : PSound r) {acc ts x} (hw : acc.Wf) (hl : 4 ≤ acc.lvl)
    (h : pPredicate r acc ts = some x) :
    x.1.Wf ∧ 3 ≤ x.1.lvl ∧ ∃ ex, x.1.yield = acc.yield ++ ex ∧ Reads ex ts x.2 := by
  unfold pPredicate at h
  split at h
  · cases h
    exact ⟨hw, by simp only; omega, [], by simp, Reads.nil⟩
  split at h
  · next hc =>
    exact pCompared_s hr hw hl hc h
  split at h
  · next hc =>
    obtain ⟨a, b, ex, e, c⟩ := pIs_s hr hw hl h
    exact ⟨a, b, _, e, Reads.cons (canon_kw (isKw_K hc)) c⟩
  split at h
  · obtain ⟨a, b, ex, e, c⟩ := pNegatable_s hr hw hl h
    exact ⟨a, b, _, e, c⟩
  split at h
  · next hc =>
    simp only [Bool.and_eq_true] at hc
    inv h
    obtain ⟨n, h1, h2⟩ := h
    obtain ⟨a, b, ex, e, c⟩ := pNegatable_s hr hw hl h2
    refine ⟨a, b, _, e, ?_⟩
    obtain ⟨_, e'⟩ := tokIf_reads h1
    rename_i ts' h4 h5 h6 h7
    cases ts' with
    | nil => simp [tokIf] at h1
    | cons t' ts' =>
      simp only [tokIf] at h1
      split at h1
      · cases h1
        exact Reads.cons (canon_kw (isKw_K hc.1)) c
      · simp at h1
  · cases h
    exact ⟨hw, by simp only; omega, [], by simp, Reads.nil⟩

theorem binOp_s {p : Nat} {t : Tok} {f : CE → CE → CE} (h : binOp p t = some f) {a b : CE} (ha : a.Wf)
    (hal : p ≤ a.lvl) (hb : b.Wf) (hbl : p + 1 ≤ b.lvl) :
    (p ≠ 3 ∧ p ≠ 7) ∧ (f a b).Wf ∧ p ≤ (f a b).lvl ∧ ∃ t', canon t' = canon t ∧ (f a b).yield = a.yield ++ t' :: b.yield := by
  unfold binOp at h
  split at h
  · split at h
    · next hc =>
      cases h
      refine ⟨by simp, ?_, Nat.le_refl _, _, canon_kw (isKw_K hc), by rw [CE_yield_or_]⟩
      rw [CE_Wf_or_]; exact ⟨ha, hb, hbl⟩
    · simp at h
  · split at h
    · next hc =>
      cases h
      refine ⟨by simp, ?_, Nat.le_refl _, _, canon_kw (isKw_K hc), by rw [CE_yield_and_]⟩
      rw [CE_Wf_and_]; exact ⟨ha, hal, hb, hbl⟩
    · simp at h
  · split at h
    · next hc =>
      cases h
      refine ⟨by simp, ?_, Nat.le_refl _, _, canon_sym (isSym_S hc), by rw [CE_yield_concat]⟩
      rw [CE_Wf_concat]; exact ⟨ha, hal, hb, hbl⟩
    · simp at h
  · split at h
    · next hc =>
      cases h
      obtain ⟨h1, h2⟩ := isSymOf_Sof hc
      have h3 : t.text = c% "+" ∨ t.text = c% "-" := by simpa using h2
      refine ⟨by simp, ?_, ?_, t, rfl, by rw [CE_yield_arith]⟩
      · rw [CE_Wf_arith, if_pos h3]
        refine ⟨⟨h1, ?_⟩, ha, hb, hal, hbl⟩
        rcases h3 with h3 | h3 <;> simp [h3]
      · simp only [CE.lvl]; rw [if_pos h3]; exact Nat.le_refl _
    · simp at h
  · split at h
    · next hc =>
      cases h
      obtain ⟨h1, h2⟩ := isSymOf_Sof hc
      have h3 : t.text = c% "*" ∨ t.text = c% "/" ∨ t.text = c% "%" := by simpa using h2
      have h4 : ¬ (t.text = c% "+" ∨ t.text = c% "-") := by
        rcases h3 with h3 | h3 | h3 <;> simp [h3]
      refine ⟨by simp, ?_, ?_, t, rfl, by rw [CE_yield_arith]⟩
      · rw [CE_Wf_arith, if_neg h4]
        refine ⟨⟨h1, ?_⟩, ha, hb, hal, hbl⟩
        rcases h3 with h3 | h3 | h3 <;> simp [h3]
      · simp only [CE.lvl]; rw [if_neg h4]; exact Nat.le_refl _
    · simp at h
  · simp at h

theorem pBinLoop_s (hr : PSound r) {p acc ts x} (hw : acc.Wf) (hl : p ≤ acc.lvl)
    (h : pBinLoop r p acc ts = some x) :
    x.1.Wf ∧ p ≤ x.1.lvl ∧ ∃ ex, x.1.yield = acc.yield ++ ex ∧ Reads ex ts x.2 := by
  unfold pBinLoop at h
  split at h
  · cases h
    exact ⟨hw, hl, [], by simp, Reads.nil⟩
  split at h
  · cases h
    exact ⟨hw, hl, [], by simp, Reads.nil⟩
  · next hb =>
    inv h
    obtain ⟨e, h1, h2⟩ := h
    obtain ⟨e1, e2, e3⟩ := lv_s hr h1
    obtain ⟨n3, f1, f2, t', ht, f3⟩ := binOp_s hb hw hl e1 e2
    obtain ⟨a, b, ex, ey, c⟩ := loop_s hr h2 f1 (by rw [if_neg n3.1]; exact f2) (fun e => absurd e n3.2)
    refine ⟨a, b, _, by rw [ey, f3, List.append_assoc], ?_⟩
    exact Reads.cons ht (e3.append c)

theorem isSign_lvl {c : CE} (h : 8 ≤ c.lvl) : c.isSign = false := by
  cases c <;> first | rfl | exact absurd h (by simp [CE.lvl])

theorem pOperand_s (hr : PSound r) {p ts x} (h : pOperand r p ts = some x) :
    x.1.Wf ∧ p ≤ x.1.lvl ∧ Reads x.1.yield ts x.2 := by
  unfold pOperand at h
  inv h
  obtain ⟨e, h1, h2⟩ := h
  obtain ⟨e1, e2, e3⟩ := lv_s hr h1
  obtain ⟨a, b, ex, ey, c⟩ := loop_s hr h2 e1 (by split <;> omega) (fun e => isSign_lvl (by omega))
  exact ⟨a, b, by rw [ey]; exact e3.append c⟩

theorem pLevel_s (hr : PSound r) {p ts x} (h : pLevel r p ts = some x) :
    x.1.Wf ∧ p ≤ x.1.lvl ∧ Reads x.1.yield ts x.2 := by
  unfold pLevel at h
  split at h
  · split at h
    · next hk =>
      inv h
      obtain ⟨e, h1, rfl⟩ := h
      obtain ⟨e1, e2, e3⟩ := lv_s hr h1
      refine ⟨?_, Nat.le_refl _, ?_⟩
      · rw [CE_Wf_not_]; exact ⟨e1, e2⟩
      · rw [CE_yield_not_]; exact (nextKw_reads hk).append e3
    · obtain ⟨e1, e2, e3⟩ := lv_s hr h
      exact ⟨e1, by omega, e3⟩
  · split at h
    · inv h
      obtain ⟨s, h1, e, h2, rfl⟩ := h
      obtain ⟨e1, e2, e3⟩ := lv_s hr h2
      obtain ⟨s1, s2⟩ := tokIf_reads h1
      refine ⟨?_, Nat.le_refl _, ?_⟩
      · rw [CE_Wf_sign]; exact ⟨isSymOf_Sof s1, e1, e2⟩
      · rw [CE_yield_sign]; exact s2.append e3
    · exact pOperand_s hr h
  · inv h
    obtain ⟨t, h1, e, h2, h3⟩ := h
    obtain ⟨e1, e2, e3⟩ := pPrimary_s hr h2
    obtain ⟨a, b, ex, ey, c⟩ := loop_s hr h3 e1 e2 nofun
    refine ⟨a, b, ?_⟩
    rw [ey]
    cases ts with
    | nil => simp [tokIf] at h1
    | cons t' ts' =>
      simp only [tokIf] at h1
      cases h1
      exact e3.append c
  · split at h
    · exact pOperand_s hr h
    · simp at h

theorem pLoop_s (hr : PSound r) {p acc ts x} (hw : acc.Wf) (hl : (if p = 3 then 4 else p) ≤ acc.lvl) (h7 : p = 7 → acc.isSign = false)
    (h : pLoop r p acc ts = some x) :
    x.1.Wf ∧ p ≤ x.1.lvl ∧ ∃ ex, x.1.yield = acc.yield ++ ex ∧ Reads ex ts x.2 := by
  unfold pLoop at h
  split at h
  · exact pPredicate_s hr hw hl h
  · exact pAt_s hr hw hl (h7 rfl) h
  · exact pPostfix_s hr hw hl h
  · next h3 _ _ =>
    rw [if_neg h3] at hl
    exact pBinLoop_s hr hw hl h

theorem pWhen_s (hr : PSound r) {ts x} (h : pWhen r ts = some x) :
    CWhen.Wfs [x.1] ∧ Reads (CWhen.yields [x.1]).flatten ts x.2 := by
  unfold pWhen at h
  inv h
  obtain ⟨u, h1, c, h2, v, h3, w, h4, rfl⟩ := h
  obtain ⟨c1, _, c2⟩ := lv_s hr h2
  obtain ⟨w1, _, w2⟩ := lv_s hr h4
  refine ⟨by rw [CWhen_Wfs_cons]; exact ⟨c1, w1, trivial⟩, ?_⟩
  rw [CWhen_yields_cons, CWhen_yields_nil]
  simpa using (kw_reads h1).append (c2.append ((kw_reads h3).append w2))

theorem pWhens_s (hr : PSound r) {ts x} (h : pWhens r ts = some x) :
    x.1 ≠ [] ∧ CWhen.Wfs x.1 ∧ Reads (CWhen.yields x.1).flatten ts x.2 := by
  unfold pWhens at h
  inv h
  obtain ⟨w, h1, h2⟩ := h
  obtain ⟨a, b⟩ := pWhen_s hr h1
  split at h2
  · inv h2
    obtain ⟨ws, h3, rfl⟩ := h2
    obtain ⟨c, d, e⟩ := whens_s hr h3
    refine ⟨by simp, ?_, ?_⟩
    · obtain ⟨⟨c, v⟩, _⟩ := w
      rw [CWhen_Wfs_cons] at a ⊢
      exact ⟨a.1, a.2.1, d⟩
    · obtain ⟨⟨c, v⟩, _⟩ := w
      rw [CWhen_yields_cons, CWhen_yields_nil] at b
      rw [CWhen_yields_cons]
      simpa using b.append e
  · cases h2
    exact ⟨by simp, a, b⟩

theorem pSort_s (hr : PSound r) {ts x} (h : pSort r ts = some x) :
    CSort.Wfs [x.1] ∧ Reads (CSort.yields [x.1]).flatten ts x.2 := by
  unfold pSort at h
  inv h
  obtain ⟨e, h1, n, h2, rfl⟩ := h
  obtain ⟨e1, _, e2⟩ := lv_s hr h1
  obtain ⟨n1, n2⟩ := optNullOrder_reads h2
  obtain ⟨o1, o2⟩ := optTok_reads Tok.isOrdering e.2
  refine ⟨by rw [CSort_Wfs_cons]; exact ⟨e1, fun t ht => isKwOf_Kof (o1 t ht), n1, trivial⟩, ?_⟩
  rw [CSort_yields_cons, CSort_yields_nil]
  simpa using e2.append (o2.append n2)

theorem pBound_s (hr : PSound r) {ts x} (h : pBound r ts = some x) : x.1.Wf ∧ Reads x.1.yield ts x.2 := by
  unfold pBound at h
  split at h
  · next hk =>
    inv h
    obtain ⟨t, h1, rfl⟩ := h
    obtain ⟨a, b⟩ := tokIf_reads h1
    exact ⟨isKwOf_Kof a, (next2_k1 hk).append b⟩
  split at h
  · next hk => cases h; exact ⟨trivial, next2_kk hk⟩
  · inv h
    obtain ⟨e, h1, t, h2, rfl⟩ := h
    obtain ⟨e1, _, e2⟩ := lv_s hr h1
    obtain ⟨a, b⟩ := tokIf_reads h2
    refine ⟨by rw [CBound_Wf_bounded]; exact ⟨e1, isKwOf_Kof a⟩, ?_⟩
    rw [CBound_yield_bounded]
    exact e2.append b

theorem optFrame_s (hr : PSound r) {ts x} (h : optFrame r ts = some x) : x.1.Wf ∧ Reads x.1.yield ts x.2 := by
  unfold optFrame at h
  split at h
  · inv h
    obtain ⟨t, h1, h2⟩ := h
    obtain ⟨a, b⟩ := tokIf_reads h1
    split at h2
    · inv h2
      obtain ⟨c, h3, rfl⟩ := h2
      obtain ⟨d, e⟩ := pBound_s hr h3
      refine ⟨by rw [CFrame_Wf_from_]; exact ⟨isKwOf_Kof a, d⟩, ?_⟩
      rw [CFrame_yield_from_]
      exact b.append e
    · next hk =>
      inv h2
      obtain ⟨c, h3, u, h4, d, h5, rfl⟩ := h2
      obtain ⟨c1, c2⟩ := pBound_s hr h3
      obtain ⟨d1, d2⟩ := pBound_s hr h5
      refine ⟨by rw [CFrame_Wf_between]; exact ⟨isKwOf_Kof a, c1, d1⟩, ?_⟩
      rw [CFrame_yield_between]
      exact b.append ((kw_reads hk).append (c2.append ((kw_reads h4).append d2)))
  · cases h; exact ⟨trivial, Reads.nil⟩

theorem optPartition_s (hr : PSound r) {ts x} (h : optPartition r ts = some x) :
    CE.Wfs x.1 ∧ Reads (clause [kwT (c% "PARTITION"), kwT (c% "BY")] (CE.yields x.1)) ts x.2 := by
  unfold optPartition at h
  split at h
  · cases h; exact ⟨trivial, Reads.nil⟩
  · next hk =>
    inv h
    obtain ⟨u, h1, h2⟩ := h
    obtain ⟨a, b, c⟩ := exprs_s hr h2
    refine ⟨b, ?_⟩
    rw [clause_ne (CE_yields_ne a)]
    exact (kw_reads hk).append ((kw_reads h1).append c)

theorem pWin_s (hr : PSound r) {ts x} (h : pWin r ts = some x) :
    x.1.isSpec ∧ x.1.Wf ∧ ∃ ex, x.1.yield = symT (c% "(") :: ex ∧ Reads ex ts x.2 := by
  unfold pWin at h
  inv h
  obtain ⟨p, h1, o, h2, f, h3, u, h4, rfl⟩ := h
  obtain ⟨p1, p2⟩ := optPartition_s hr h1
  obtain ⟨o1, o2⟩ := optOrder_s hr h2
  obtain ⟨f1, f2⟩ := optFrame_s hr h3
  obtain ⟨n1, n2⟩ := optTok_reads Tok.isWinName ts
  refine ⟨trivial, ?_, ?_⟩
  · rw [CWin_Wf_spec]
    refine ⟨fun t ht => ?_, p1, o1, f1⟩
    have := n1 t ht
    simp only [Tok.isWinName, Bool.and_eq_true] at this
    exact isIdent_Ident this.1.1
  · rw [CWin_yield_spec]
    refine ⟨_, rfl, ?_⟩
    simpa using n2.append (p2.append (o2.append (f2.append (sym_reads h4))))

theorem optWith_s (hr : PSound r) {ts x} (h : optWith r ts = some x) :
    (x.1.1 = true → x.1.2 ≠ []) ∧ CNamed.Wfs x.1.2 ∧
      Reads (clause (kwT (c% "WITH") :: flag x.1.1 [kwT (c% "RECURSIVE")]) (CNamed.yields x.1.2)) ts x.2 := by
  unfold optWith at h
  split at h
  · cases h; exact ⟨fun h => Bool.noConfusion h, trivial, Reads.nil⟩
  · next hk =>
    inv h
    obtain ⟨w, h1, rfl⟩ := h
    obtain ⟨a, b, c⟩ : w.1 ≠ [] ∧ CNamed.Wfs w.1 ∧ Reads (commas (CNamed.yields w.1)) _ w.2 := hr _ _ _ h1
    refine ⟨fun _ => a, b, ?_⟩
    rw [clause_ne (CNamed_yields_ne a)]
    simpa using (kw_reads hk).append ((optKw_reads _ _).append c)

theorem pQuery_s (hr : PSound r) {ts x} (h : pQuery r ts = some x) : x.1.Wf ∧ Reads x.1.yield ts x.2 := by
  unfold pQuery at h
  inv h
  obtain ⟨w, h1, b, h2, rfl⟩ := h
  obtain ⟨w1, w2, w3⟩ := optWith_s hr h1
  obtain ⟨b1, b2⟩ : b.1.Wf ∧ Reads b.1.yield w.2 b.2 := hr _ _ _ h2
  refine ⟨by rw [CQ_Wf_mk]; exact ⟨w1, w2, b1⟩, ?_⟩
  rw [CQ_yield_mk]
  exact w3.append b2

theorem pNamed_s (hr : PSound r) {ts x} (h : pNamed r ts = some x) :
    CNamed.Wfs [x.1] ∧ Reads (CNamed.yields [x.1]).flatten ts x.2 := by
  unfold pNamed at h
  inv h
  obtain ⟨n, h1, c, h2, u, h3, v, h4, q, h5, rfl⟩ := h
  obtain ⟨n1, n2⟩ := pIdent_reads h1
  obtain ⟨c1, c2⟩ := optColumns_reads h2
  obtain ⟨q1, q2⟩ := pSub_s hr h5
  refine ⟨by rw [CNamed_Wfs_cons]; exact ⟨n1, c1, q1, trivial⟩, ?_⟩
  rw [CNamed_yields_cons, CNamed_yields_nil]
  simpa [inParens] using n2.append (c2.append ((kw_reads h3).append ((sym_reads h4).append q2)))

theorem qterm_s (hr : PSound r) {p ts x} (h : r (.qterm p) ts = some x) :
    x.1.Wf ∧ p ≤ x.1.lvl ∧ Reads x.1.yield ts x.2 := hr _ _ _ h

theorem pQnw_s (hr : PSound r) {ts x} (h : pQnw r ts = some x) : x.1.Wf ∧ Reads x.1.yield ts x.2 := by
  unfold pQnw at h
  inv h
  obtain ⟨t, h1, o, h2, f, h3, l, h4, rfl⟩ := h
  obtain ⟨t1, _, t2⟩ := qterm_s hr h1
  obtain ⟨o1, o2⟩ := optOrder_s hr h2
  obtain ⟨f1, f2⟩ := optOffset_reads h3
  obtain ⟨l1, l2⟩ := optLimit_reads h4
  refine ⟨by rw [CQN_Wf_mk]; exact ⟨t1, o1, f1, l1⟩, ?_⟩
  rw [CQN_yield_mk]
  exact t2.append (o2.append (f2.append l2))

theorem qloop_s (hr : PSound r) {p acc ts x} (h : r (.qloop p acc) ts = some x) : p ≤ 1 → acc.Wf → p ≤ acc.lvl →
    x.1.Wf ∧ p ≤ x.1.lvl ∧ ∃ ex, x.1.yield = acc.yield ++ ex ∧ Reads ex ts x.2 := hr _ _ _ h

theorem pQLoop_s (hr : PSound r) {p acc ts x} (hp : p ≤ 1) (hw : acc.Wf) (hl : p ≤ acc.lvl)
    (h : pQLoop r p acc ts = some x) :
    x.1.Wf ∧ p ≤ x.1.lvl ∧ ∃ ex, x.1.yield = acc.yield ++ ex ∧ Reads ex ts x.2 := by
  unfold pQLoop at h
  split at h
  · inv h
    obtain ⟨t, h1, q, h2, h3⟩ := h
    obtain ⟨t1, t2⟩ := tokIf_reads h1
    obtain ⟨q1, q2, q3⟩ := qterm_s hr h2
    have o := (optTok_reads Tok.isQuant t.2).2
    have key : (CQT.set t.1 (optTok Tok.isQuant t.2).1 acc q.1).Wf ∧
        p ≤ (CQT.set t.1 (optTok Tok.isQuant t.2).1 acc q.1).lvl := by
      rw [CQT_Wf_set]
      match p, hp with
      | 0, _ =>
        obtain ⟨a, b⟩ := isKwOf_Kof t1
        have b' : upper t.1.text = c% "UNION" ∨ upper t.1.text = c% "EXCEPT" := by simpa using b
        have e : ¬ upper t.1.text = c% "INTERSECT" := by rcases b' with b' | b' <;> simp [b']
        refine ⟨⟨⟨a, by rcases b' with b' | b' <;> simp [b']⟩, optTok_quant _, hw, q1, ?_⟩, Nat.zero_le _⟩
        rw [if_neg e]; exact q2
      | 1, _ =>
        obtain ⟨a, b⟩ := isKw_K t1
        refine ⟨⟨⟨a, by simp [b]⟩, optTok_quant _, hw, q1, ?_⟩, ?_⟩
        · rw [if_pos b]; exact ⟨hl, q2⟩
        · simp only [CQT.lvl]; rw [if_pos b]; exact Nat.le_refl _
    obtain ⟨a, b, ex, e, c⟩ := qloop_s hr h3 hp key.1 key.2
    refine ⟨a, b, _, by rw [e, CQT_yield_set]; simp only [List.append_assoc, List.cons_append]; rfl, ?_⟩
    simpa using t2.append (o.append (q3.append c))
  · cases h
    exact ⟨hw, hl, [], by simp, Reads.nil⟩

theorem optFrom_s (hr : PSound r) {ts x} (h : optFrom r ts = some x) :
    CR.Wfs x.1 ∧ Reads (clause [kwT (c% "FROM")] (CR.yields x.1)) ts x.2 := by
  unfold optFrom at h
  split at h
  · cases h; exact ⟨trivial, Reads.nil⟩
  · next hk =>
    obtain ⟨a, b, c⟩ : x.1 ≠ [] ∧ CR.Wfs x.1 ∧ Reads (commas (CR.yields x.1)) _ x.2 := hr _ _ _ h
    refine ⟨b, ?_⟩
    rw [clause_ne (CR_yields_ne a)]
    exact (kw_reads hk).append c

theorem optGroup_s (hr : PSound r) {ts x} (h : optGroup r ts = some x) :
    Opt Quant x.1.1 ∧ (x.1.1.isSome → x.1.2 ≠ []) ∧ CGrp.Wfs x.1.2 ∧
      Reads (clause (kwT (c% "GROUP") :: kwT (c% "BY") :: x.1.1.toList) (CGrp.yields x.1.2)) ts x.2 := by
  unfold optGroup at h
  split at h
  · cases h; exact ⟨Opt.none, fun h => Bool.noConfusion h, trivial, Reads.nil⟩
  · next hk =>
    inv h
    obtain ⟨u, h1, g, h2, rfl⟩ := h
    obtain ⟨a, b, c⟩ : g.1 ≠ [] ∧ CGrp.Wfs g.1 ∧ Reads (commas (CGrp.yields g.1)) _ g.2 := hr _ _ _ h2
    refine ⟨optTok_quant _, fun _ => a, b, ?_⟩
    rw [clause_ne (CGrp_yields_ne a)]
    simpa using (kw_reads hk).append ((kw_reads h1).append ((optTok_reads Tok.isQuant u).2.append c))

theorem optWindow_s (hr : PSound r) {ts x} (h : optWindow r ts = some x) :
    CWinDef.Wfs x.1 ∧ Reads (clause [kwT (c% "WINDOW")] (CWinDef.yields x.1)) ts x.2 := by
  unfold optWindow at h
  split at h
  · cases h; exact ⟨trivial, Reads.nil⟩
  · next hk =>
    obtain ⟨a, b, c⟩ : x.1 ≠ [] ∧ CWinDef.Wfs x.1 ∧ Reads (commas (CWinDef.yields x.1)) _ x.2 := hr _ _ _ h
    refine ⟨b, ?_⟩
    rw [clause_ne (CWinDef_yields_ne a)]
    exact (kw_reads hk).append c

theorem pSelect_s (hr : PSound r) {ts x} (h : pSelect r ts = some x) :
    x.1.Wf ∧ 2 ≤ x.1.lvl ∧ ∃ ex, x.1.yield = kwT (c% "SELECT") :: ex ∧ Reads ex ts x.2 := by
  unfold pSelect at h
  inv h
  obtain ⟨i, h1, f, h2, w, h3, g, h4, v, h5, d, h6, rfl⟩ := h
  obtain ⟨i1, i2, i3⟩ : i.1 ≠ [] ∧ CItem.Wfs i.1 ∧ Reads (commas (CItem.yields i.1)) _ i.2 := hr _ _ _ h1
  obtain ⟨f1, f2⟩ := optFrom_s hr h2
  obtain ⟨w1, w2⟩ := optExpr_s hr h3
  obtain ⟨g1, g2, g3, g4⟩ := optGroup_s hr h4
  obtain ⟨v1, v2⟩ := optExpr_s hr h5
  obtain ⟨d1, d2⟩ := optWindow_s hr h6
  refine ⟨by rw [CQT_Wf_spec]; exact ⟨optTok_quant _, i1, i2, f1, w1, g1, g2, g3, v1, d1⟩, Nat.le_refl _, ?_⟩
  rw [CQT_yield_spec]
  exact ⟨_, rfl, (optTok_reads Tok.isQuant ts).2.append (i3.append (f2.append (w2.append (g4.append (v2.append d2)))))⟩

theorem pQPrimary_s (hr : PSound r) {ts x} (h : pQPrimary r ts = some x) :
    x.1.Wf ∧ 2 ≤ x.1.lvl ∧ Reads x.1.yield ts x.2 := by
  unfold pQPrimary at h
  split at h
  · simp at h
  split at h
  · next hk =>
    obtain ⟨a, b, ex, e, c⟩ := pSelect_s hr h
    exact ⟨a, b, by rw [e]; exact Reads.cons (canon_kw (isKw_K hk)) c⟩
  split at h
  · next hk =>
    inv h
    obtain ⟨n, h1, rfl⟩ := h
    obtain ⟨a, b, c⟩ := pQName_reads _ h1
    exact ⟨by rw [CQT_Wf_table]; exact ⟨a, b⟩, Nat.le_refl _, by
      rw [CQT_yield_table]; exact Reads.cons (canon_kw (isKw_K hk)) c⟩
  split at h
  · next hk =>
    inv h
    obtain ⟨n, h1, rfl⟩ := h
    obtain ⟨a, b, c⟩ := exprs_s hr h1
    exact ⟨by rw [CQT_Wf_values]; exact ⟨a, b⟩, Nat.le_refl _, by
      rw [CQT_yield_values]; exact Reads.cons (canon_kw (isKw_K hk)) c⟩
  split at h
  · next hk =>
    inv h
    obtain ⟨q, h1, u, h2, rfl⟩ := h
    obtain ⟨a, b⟩ : q.1.Wf ∧ Reads q.1.yield _ q.2 := hr _ _ _ h1
    exact ⟨by rw [CQT_Wf_sub]; exact a, Nat.le_refl _, by
      rw [CQT_yield_sub]; exact Reads.cons (canon_sym (isSym_S hk)) (b.append (sym_reads h2))⟩
  · simp at h

theorem pQTerm_s (hr : PSound r) {p ts x} (h : pQTerm r p ts = some x) :
    x.1.Wf ∧ p ≤ x.1.lvl ∧ Reads x.1.yield ts x.2 := by
  have key : ∀ p, p ≤ 1 → (do
      let q ← r (.qterm (p + 1)) ts
      r (.qloop p q.1) q.2) = some x → x.1.Wf ∧ p ≤ x.1.lvl ∧ Reads x.1.yield ts x.2 := by
    intro p hp h
    inv h
    obtain ⟨q, h1, h2⟩ := h
    obtain ⟨q1, q2, q3⟩ := qterm_s hr h1
    obtain ⟨a, b, ex, e, c⟩ := qloop_s hr h2 hp q1 (by omega)
    exact ⟨a, b, by rw [e]; exact q3.append c⟩
  unfold pQTerm at h
  split at h
  · exact key 0 (by omega) h
  · exact key 1 (by omega) h
  · exact pQPrimary_s hr h
  · simp at h

theorem isPrimary_lvl {e : CE} (h : e.isPrimary = true) : 8 ≤ e.lvl := by
  cases e <;> first | exact Nat.le_refl _ | exact absurd h (by simp [CE.isPrimary])

theorem pItem_s (hr : PSound r) {ts x} (h : pItem r ts = some x) : x.1.Wf ∧ Reads x.1.yield ts x.2 := by
  unfold pItem at h
  split at h
  · next hk => cases h; exact ⟨trivial, sym_reads hk⟩
  · inv h
    obtain ⟨e, h1, h2⟩ := h
    obtain ⟨e1, _, e2⟩ := lv_s hr h1
    split at h2
    · next hk =>
      split at h2
      · next hp =>
        inv h2
        obtain ⟨c, h3, rfl⟩ := h2
        obtain ⟨a, b⟩ := optAsColumns_reads h3
        refine ⟨by rw [CItem_Wf_allOf]; exact ⟨e1, isPrimary_lvl hp, a⟩, ?_⟩
        rw [CItem_yield_allOf]
        exact e2.append ((next2_ss hk).append b)
      · simp at h2
    · inv h2
      obtain ⟨a, h3, rfl⟩ := h2
      obtain ⟨a1, a2, a3⟩ := optAlias_reads h3
      refine ⟨by rw [CItem_Wf_expr]; exact ⟨e1, a1, a2⟩, ?_⟩
      rw [CItem_yield_expr]
      exact e2.append a3

theorem pSet_s (hr : PSound r) {ts x} (h : pSet r ts = some x) : x.1.Wf ∧ Reads x.1.yield ts x.2 := by
  unfold pSet at h
  split at h
  · next hc =>
    simp only [Bool.and_eq_true] at hc
    inv h
    obtain ⟨es, h1, rfl⟩ := h
    obtain ⟨a, b⟩ := pArgs_s hr h1
    refine ⟨by rw [CSet_Wf_paren]; exact a, ?_⟩
    rw [CSet_yield_paren]
    exact (nextSym_reads hc.1).append b
  · inv h
    obtain ⟨e, h1, rfl⟩ := h
    obtain ⟨e1, _, e2⟩ := lv_s hr h1
    refine ⟨by rw [CSet_Wf_expr]; exact e1, ?_⟩
    rw [CSet_yield_expr]; exact e2

theorem pGrp_s (hr : PSound r) {ts x} (h : pGrp r ts = some x) : x.1.Wf ∧ Reads x.1.yield ts x.2 := by
  unfold pGrp at h
  split at h
  · next hk =>
    inv h
    obtain ⟨es, h1, rfl⟩ := h
    obtain ⟨a, b⟩ := pArgs_s hr h1
    refine ⟨by rw [CGrp_Wf_rollup]; exact a, ?_⟩
    rw [CGrp_yield_rollup]
    exact (next2_ks hk).append b
  split at h
  · next hk =>
    inv h
    obtain ⟨es, h1, rfl⟩ := h
    obtain ⟨a, b⟩ := pArgs_s hr h1
    refine ⟨by rw [CGrp_Wf_cube]; exact a, ?_⟩
    rw [CGrp_yield_cube]
    exact (next2_ks hk).append b
  split at h
  · next hk =>
    inv h
    obtain ⟨u, h1, ss, h2, v, h3, rfl⟩ := h
    obtain ⟨a, b, c⟩ : ss.1 ≠ [] ∧ CSet.Wfs ss.1 ∧ Reads (commas (CSet.yields ss.1)) _ ss.2 := hr _ _ _ h2
    refine ⟨by rw [CGrp_Wf_sets]; exact ⟨a, b⟩, ?_⟩
    rw [CGrp_yield_sets]
    exact (next2_kk hk).append ((sym_reads h1).append (c.append (sym_reads h3)))
  · inv h
    obtain ⟨s, h1, rfl⟩ := h
    obtain ⟨a, b⟩ := pSet_s hr h1
    refine ⟨by rw [CGrp_Wf_single]; exact a, ?_⟩
    rw [CGrp_yield_single]; exact b

theorem pWinDef_s (hr : PSound r) {ts x} (h : pWinDef r ts = some x) :
    CWinDef.Wfs [x.1] ∧ Reads (CWinDef.yields [x.1]).flatten ts x.2 := by
  unfold pWinDef at h
  inv h
  obtain ⟨n, h1, u, h2, v, h3, w, h4, rfl⟩ := h
  obtain ⟨n1, n2⟩ := pIdent_reads h1
  obtain ⟨a, b, ex, e, c⟩ := win_s hr h4
  refine ⟨by rw [CWinDef_Wfs_cons]; exact ⟨n1, a, b, trivial⟩, ?_⟩
  rw [CWinDef_yields_cons, CWinDef_yields_nil, e]
  simpa using n2.append ((kw_reads h2).append ((sym_reads h3).append c))

theorem pCrit_s (hr : PSound r) {ts x} (h : pCrit r ts = some x) : x.1.Wf ∧ Reads x.1.yield ts x.2 := by
  unfold pCrit at h
  split at h
  · next hk =>
    inv h
    obtain ⟨e, h1, rfl⟩ := h
    obtain ⟨e1, _, e2⟩ := lv_s hr h1
    refine ⟨by rw [CCrit_Wf_on]; exact e1, ?_⟩
    rw [CCrit_yield_on]
    exact (kw_reads hk).append e2
  · inv h
    obtain ⟨u, h1, c, h2, rfl⟩ := h
    obtain ⟨a, b, d⟩ := pColumns_reads h2
    exact ⟨⟨a, b⟩, (kw_reads h1).append d⟩

theorem pRelPrimary_s (hr : PSound r) {ts x} (h : pRelPrimary r ts = some x) :
    x.1.Wf ∧ 3 ≤ x.1.lvl ∧ Reads x.1.yield ts x.2 := by
  unfold pRelPrimary at h
  split at h
  · next hk =>
    split at h
    · inv h
      obtain ⟨q, h1, rfl⟩ := h
      obtain ⟨a, b⟩ := pSub_s hr h1
      exact ⟨by rw [CR_Wf_sub]; exact a, Nat.le_refl _, by
        rw [CR_yield_sub]; exact (nextSym_reads hk).append b⟩
    · inv h
      obtain ⟨y, h1, u, h2, rfl⟩ := h
      obtain ⟨a, b⟩ := rel_s hr h1
      exact ⟨by rw [CR_Wf_paren]; exact a, Nat.le_refl _, by
        rw [CR_yield_paren]; exact (nextSym_reads hk).append (b.append (sym_reads h2))⟩
  split at h
  · next hk =>
    inv h
    obtain ⟨u, h1, es, h2, v, h3, rfl⟩ := h
    obtain ⟨a, b, c⟩ := exprs_s hr h2
    refine ⟨by rw [CR_Wf_unnest]; exact ⟨a, b⟩, Nat.le_refl _, ?_⟩
    rw [CR_yield_unnest]
    simpa [inParens] using
      (nextKw_reads hk).append ((sym_reads h1).append (c.append ((sym_reads h3).append (optOrdinality_reads v))))
  split at h
  · next hk =>
    inv h
    obtain ⟨u, h1, q, h2, rfl⟩ := h
    obtain ⟨a, b⟩ := pSub_s hr h2
    exact ⟨by rw [CR_Wf_lateral]; exact a, Nat.le_refl _, by
      rw [CR_yield_lateral]; exact (nextKw_reads hk).append ((sym_reads h1).append b)⟩
  · inv h
    obtain ⟨n, h1, rfl⟩ := h
    obtain ⟨a, b, c⟩ := pQName_reads _ h1
    exact ⟨⟨a, b⟩, Nat.le_refl _, c⟩

theorem pAliased_s (hr : PSound r) {ts x} (h : pAliased r ts = some x) :
    x.1.Wf ∧ 2 ≤ x.1.lvl ∧ Reads x.1.yield ts x.2 := by
  unfold pAliased at h
  inv h
  obtain ⟨y, h1, a, h2, c, h3, rfl⟩ := h
  obtain ⟨y1, y2, y3⟩ := pRelPrimary_s hr h1
  obtain ⟨a1, a2, a3⟩ := optAlias_reads h2
  obtain ⟨⟨b, n⟩, v⟩ := a
  cases n with
  | none =>
    simp only [aliasColumns] at h3
    cases h3
    cases b with
    | true => exact absurd (a2 rfl) (by simp)
    | false =>
      refine ⟨y1, by simp only [addAlias]; omega, ?_⟩
      have := y3.append a3
      simpa [addAlias, aliasPart, flag] using this
  | some n =>
    obtain ⟨c1, c2⟩ := optColumns_reads (x := c) h3
    refine ⟨?_, Nat.le_refl _, ?_⟩
    · change (CR.alias y.1 b n c.1).Wf
      rw [CR_Wf_alias]
      exact ⟨y1, y2, a1 n rfl, c1⟩
    · change Reads (CR.alias y.1 b n c.1).yield _ _
      rw [CR_yield_alias]
      exact y3.append (a3.append c2)

theorem pSampled_s (hr : PSound r) {ts x} (h : pSampled r ts = some x) :
    x.1.Wf ∧ 1 ≤ x.1.lvl ∧ Reads x.1.yield ts x.2 := by
  unfold pSampled at h
  inv h
  obtain ⟨y, h1, h2⟩ := h
  obtain ⟨y1, y2, y3⟩ := pAliased_s hr h1
  split at h2
  · cases h2; exact ⟨y1, by omega, y3⟩
  · next hk =>
    inv h2
    obtain ⟨t, h3, u, h4, e, h5, v, h6, rfl⟩ := h2
    obtain ⟨a, b⟩ := tokIf_reads h3
    obtain ⟨e1, _, e2⟩ := lv_s hr h5
    refine ⟨by rw [CR_Wf_sample]; exact ⟨y1, y2, isKwOf_Kof a, e1⟩, Nat.le_refl _, ?_⟩
    rw [CR_yield_sample]
    simpa [inParens] using y3.append ((kw_reads hk).append (b.append ((sym_reads h4).append (e2.append (sym_reads h6)))))

theorem relLoop_s (hr : PSound r) {acc ts x} (h : r (.relLoop acc) ts = some x) : acc.Wf →
    x.1.Wf ∧ ∃ ex, x.1.yield = acc.yield ++ ex ∧ Reads ex ts x.2 := hr _ _ _ h

theorem pRelLoop_s (hr : PSound r) {acc ts x} (hw : acc.Wf) (h : pRelLoop r acc ts = some x) :
    x.1.Wf ∧ ∃ ex, x.1.yield = acc.yield ++ ex ∧ Reads ex ts x.2 := by
  unfold pRelLoop at h
  split at h
  · next hk =>
    inv h
    obtain ⟨u, h1, y, h2, h3⟩ := h
    obtain ⟨y1, y2, y3⟩ := pSampled_s hr h2
    obtain ⟨a, ex, e, c⟩ := relLoop_s hr h3 (by rw [CR_Wf_cross]; exact ⟨hw, y1, y2⟩)
    refine ⟨a, _, by rw [e, CR_yield_cross]; simp only [List.append_assoc, List.cons_append]; rfl, ?_⟩
    exact (nextKw_reads hk).append ((kw_reads h1).append (y3.append c))
  split at h
  · next hk =>
    inv h
    obtain ⟨t, h1, y, h2, h3⟩ := h
    obtain ⟨y1, y2, y3⟩ := pSampled_s hr h2
    obtain ⟨a, ex, e, c⟩ := relLoop_s hr h3 (by rw [CR_Wf_natural]; exact ⟨hw, y1, y2⟩)
    refine ⟨a, _, by rw [e, CR_yield_natural]; simp only [List.append_assoc, List.cons_append]; rfl, ?_⟩
    exact (nextKw_reads hk).append ((pJoinType_reads h1).append (y3.append c))
  split at h
  · inv h
    obtain ⟨t, h1, y, h2, d, h4, h3⟩ := h
    obtain ⟨y1, y3⟩ := rel_s hr h2
    obtain ⟨d1, d2⟩ := pCrit_s hr h4
    obtain ⟨a, ex, e, c⟩ := relLoop_s hr h3 (by rw [CR_Wf_join]; exact ⟨hw, y1, d1⟩)
    refine ⟨a, _, by rw [e, CR_yield_join]; simp only [List.append_assoc, List.cons_append]; rfl, ?_⟩
    exact (pJoinType_reads h1).append (y3.append (d2.append c))
  · cases h
    exact ⟨hw, [], by simp, Reads.nil⟩

theorem pStep_sound (hr : PSound r) : PSound (pStep r) := by
  intro nt ts x h
  cases nt with
  | lv p => exact pLevel_s hr h
  | loop p acc => exact fun hw hl h7 => pLoop_s hr hw hl h7 h
  | exprs =>
    exact pSep_s (W := CE.Wf) (Y := CE.yield) (fun _ _ h => ⟨(lv_s hr h).1, (lv_s hr h).2.2⟩) (fun _ _ h => exprs_s hr h)
      trivial (fun _ _ a b => ⟨a, b⟩) rfl (fun _ _ => rfl) h
  | whens => exact pWhens_s hr h
  | sorts =>
    exact pSep_s (W := fun s => CSort.Wfs [s]) (Y := fun s => (CSort.yields [s]).flatten) (fun _ _ h => pSort_s hr h)
      (fun _ _ h => sorts_s hr h) trivial
      (fun a as h1 h2 => by
        cases a; rw [CSort_Wfs_cons] at h1 ⊢; exact ⟨h1.1, h1.2.1, h1.2.2.1, h2⟩) rfl
      (fun a as => by cases a; rw [CSort_yields_cons, CSort_yields_cons, CSort_yields_nil]; simp) h
  | win => exact pWin_s hr h
  | query => exact pQuery_s hr h
  | qnw => exact pQnw_s hr h
  | qterm p => exact pQTerm_s hr h
  | qloop p acc => exact fun hp hw hl => pQLoop_s hr hp hw hl h
  | items =>
    exact pSep_s (W := CItem.Wf) (Y := CItem.yield) (fun _ _ h => pItem_s hr h)
      (fun _ _ h => items_s hr h)
      trivial (fun _ _ a b => ⟨a, b⟩) rfl (fun _ _ => rfl) h
  | sets =>
    exact pSep_s (W := CSet.Wf) (Y := CSet.yield) (fun _ _ h => pSet_s hr h)
      (fun _ _ h => sets_s hr h)
      trivial (fun _ _ a b => ⟨a, b⟩) rfl (fun _ _ => rfl) h
  | grps =>
    exact pSep_s (W := CGrp.Wf) (Y := CGrp.yield) (fun _ _ h => pGrp_s hr h)
      (fun _ _ h => grps_s hr h)
      trivial (fun _ _ a b => ⟨a, b⟩) rfl (fun _ _ => rfl) h
  | wdefs =>
    exact pSep_s (W := fun s => CWinDef.Wfs [s]) (Y := fun s => (CWinDef.yields [s]).flatten) (fun _ _ h => pWinDef_s hr h)
      (fun _ _ h => wdefs_s hr h) trivial
      (fun a as h1 h2 => by
        cases a; rw [CWinDef_Wfs_cons] at h1 ⊢; exact ⟨h1.1, h1.2.1, h1.2.2.1, h2⟩) rfl
      (fun a as => by cases a; rw [CWinDef_yields_cons, CWinDef_yields_cons, CWinDef_yields_nil]; simp) h
  | nameds =>
    exact pSep_s (W := fun s => CNamed.Wfs [s]) (Y := fun s => (CNamed.yields [s]).flatten) (fun _ _ h => pNamed_s hr h)
      (fun _ _ h => nameds_s hr h) trivial
      (fun a as h1 h2 => by
        cases a; rw [CNamed_Wfs_cons] at h1 ⊢; exact ⟨h1.1, h1.2.1, h1.2.2.1, h2⟩) rfl
      (fun a as => by cases a; rw [CNamed_yields_cons, CNamed_yields_cons, CNamed_yields_nil]; simp) h
  | rel =>
    simp only [pStep] at h
    inv h
    obtain ⟨y, h1, h2⟩ := h
    obtain ⟨y1, y2, y3⟩ := pSampled_s hr h1
    obtain ⟨a, ex, e, c⟩ := relLoop_s hr h2 y1
    exact ⟨a, by rw [e]; exact y3.append c⟩
  | relLoop acc => exact fun hw => pRelLoop_s hr hw h
  | rels =>
    exact pSep_s (W := CR.Wf) (Y := CR.yield) (fun _ _ h => rel_s hr h)
      (fun _ _ h => rels_s hr h)
      trivial (fun _ _ a b => ⟨a, b⟩) rfl (fun _ _ => rfl) h

/-- The parser only returns derivations. -/
theorem P_sound : PSound P := P_induct Post fun _ hr => pStep_sound hr

end Treeno
