import Verif.Lemmas.RespellType
/-!
# Reading expressions, queries and relations does not depend on the case of keywords
-/
namespace Treeno

set_option linter.unusedSectionVars false
variable {σ : Tok → Tok}

/-- The state of the parser with its tokens changed. -/
def NT.respell (σ : Tok → Tok) : NT → NT
  | .loop p acc => .loop p (acc.respell σ)
  | .qloop p acc => .qloop p (acc.respell σ)
  | .relLoop acc => .relLoop (acc.respell σ)
  | .lv p => .lv p
  | .exprs => .exprs
  | .whens => .whens
  | .sorts => .sorts
  | .win => .win
  | .query => .query
  | .qnw => .qnw
  | .qterm p => .qterm p
  | .items => .items
  | .sets => .sets
  | .grps => .grps
  | .wdefs => .wdefs
  | .nameds => .nameds
  | .rel => .rel
  | .rels => .rels

/-- The result of a part of the parser with its tokens changed. -/
def NT.outMap (σ : Tok → Tok) : (nt : NT) → nt.Out → (nt.respell σ).Out
  | .lv _ => CE.respell σ
  | .loop _ _ => CE.respell σ
  | .exprs => List.map (CE.respell σ)
  | .whens => List.map (CWhen.respell σ)
  | .sorts => List.map (CSort.respell σ)
  | .win => CWin.respell σ
  | .query => CQ.respell σ
  | .qnw => CQN.respell σ
  | .qterm _ => CQT.respell σ
  | .qloop _ _ => CQT.respell σ
  | .items => List.map (CItem.respell σ)
  | .sets => List.map (CSet.respell σ)
  | .grps => List.map (CGrp.respell σ)
  | .wdefs => List.map (CWinDef.respell σ)
  | .nameds => List.map (CNamed.respell σ)
  | .rel => CR.respell σ
  | .relLoop _ => CR.respell σ
  | .rels => List.map (CR.respell σ)

/-- The parsers commute with `σ`. -/
def PNat (σ : Tok → Tok) (r : Rec) : Prop :=
  ∀ nt ts, r (nt.respell σ) (ts.map σ) = (r nt ts).map (out σ (nt.outMap σ))

section
variable {r : Rec} (hr : PNat σ r)
include hr
theorem PNat.lv (p : Nat) (ts : List Tok) : r (.lv p) (ts.map σ) = (r (.lv p) ts).map (out σ (CE.respell σ)) :=
  hr (.lv p) ts
theorem PNat.loop (p : Nat) (c : CE) (ts : List Tok) :
    r (.loop p (c.respell σ)) (ts.map σ) = (r (.loop p c) ts).map (out σ (CE.respell σ)) := hr (.loop p c) ts
theorem PNat.exprs (ts : List Tok) : r .exprs (ts.map σ) = (r .exprs ts).map (out σ (List.map (CE.respell σ))) :=
  hr .exprs ts
theorem PNat.whens (ts : List Tok) : r .whens (ts.map σ) = (r .whens ts).map (out σ (List.map (CWhen.respell σ))) :=
  hr .whens ts
theorem PNat.sorts (ts : List Tok) : r .sorts (ts.map σ) = (r .sorts ts).map (out σ (List.map (CSort.respell σ))) :=
  hr .sorts ts
theorem PNat.win (ts : List Tok) : r .win (ts.map σ) = (r .win ts).map (out σ (CWin.respell σ)) := hr .win ts
theorem PNat.query (ts : List Tok) : r .query (ts.map σ) = (r .query ts).map (out σ (CQ.respell σ)) := hr .query ts
theorem PNat.qnw (ts : List Tok) : r .qnw (ts.map σ) = (r .qnw ts).map (out σ (CQN.respell σ)) := hr .qnw ts
theorem PNat.qterm (p : Nat) (ts : List Tok) :
    r (.qterm p) (ts.map σ) = (r (.qterm p) ts).map (out σ (CQT.respell σ)) := hr (.qterm p) ts
theorem PNat.qloop (p : Nat) (c : CQT) (ts : List Tok) :
    r (.qloop p (c.respell σ)) (ts.map σ) = (r (.qloop p c) ts).map (out σ (CQT.respell σ)) := hr (.qloop p c) ts
theorem PNat.items (ts : List Tok) : r .items (ts.map σ) = (r .items ts).map (out σ (List.map (CItem.respell σ))) :=
  hr .items ts
theorem PNat.sets (ts : List Tok) : r .sets (ts.map σ) = (r .sets ts).map (out σ (List.map (CSet.respell σ))) :=
  hr .sets ts
theorem PNat.grps (ts : List Tok) : r .grps (ts.map σ) = (r .grps ts).map (out σ (List.map (CGrp.respell σ))) :=
  hr .grps ts
theorem PNat.wdefs (ts : List Tok) :
    r .wdefs (ts.map σ) = (r .wdefs ts).map (out σ (List.map (CWinDef.respell σ))) := hr .wdefs ts
theorem PNat.nameds (ts : List Tok) :
    r .nameds (ts.map σ) = (r .nameds ts).map (out σ (List.map (CNamed.respell σ))) := hr .nameds ts
theorem PNat.rel (ts : List Tok) : r .rel (ts.map σ) = (r .rel ts).map (out σ (CR.respell σ)) := hr .rel ts
theorem PNat.relLoop (c : CR) (ts : List Tok) :
    r (.relLoop (c.respell σ)) (ts.map σ) = (r (.relLoop c) ts).map (out σ (CR.respell σ)) := hr (.relLoop c) ts
theorem PNat.rels (ts : List Tok) : r .rels (ts.map σ) = (r .rels ts).map (out σ (List.map (CR.respell σ))) :=
  hr .rels ts
end

section
variable (h : Keeps σ)
include h
theorem Keeps.bKw (k : Str) : Blind σ (Tok.isKw k) := h.isKw k
theorem Keeps.bKwOf (k : List Str) : Blind σ (Tok.isKwOf k) := h.isKwOf k
theorem Keeps.bSym (k : Str) : Blind σ (Tok.isSym k) := h.isSym k
theorem Keeps.bSymOf (k : List Str) : Blind σ (Tok.isSymOf k) := h.isSymOf k
theorem Keeps.bIdent : Blind σ Tok.isIdent := h.isIdent
theorem Keeps.bNum : Blind σ Tok.isNum := h.isNum
theorem Keeps.bQuant : Blind σ Tok.isQuant := h.isKwOf _
theorem Keeps.bForm : Blind σ Tok.isForm := h.isKwOf _
theorem Keeps.bTrim : Blind σ Tok.isTrim := h.isKwOf _
theorem Keeps.bNegatable : Blind σ Tok.isNegatable := h.isKwOf _
theorem Keeps.bCmpQuant : Blind σ Tok.isCmpQuant := h.isKwOf _
theorem Keeps.bOrdering : Blind σ Tok.isOrdering := h.isKwOf _
theorem Keeps.bDirection : Blind σ Tok.isDirection := h.isKwOf _
theorem Keeps.bFrame : Blind σ Tok.isFrame := h.isKwOf _
theorem Keeps.bRows : Blind σ Tok.isRows := h.isKwOf _
theorem Keeps.bCount : Blind σ Tok.isCount := h.isCount
theorem Keeps.bWinName : Blind σ Tok.isWinName := h.isWinName
theorem Keeps.bAlias : Blind σ Tok.isAlias := h.isAlias
theorem Keeps.bSetOp (p : Nat) : Blind σ (Tok.isSetOp p) := h.isSetOp p
theorem Keeps.bLimit : Blind σ (fun t => t.isCount || t.isKw (c% "ALL")) := fun t => by
  simp only [h.isCount, h.isKw]
theorem Keeps.bAny : Blind σ (fun _ => true) := fun _ => rfl
theorem Keeps.bStr : Blind σ (fun u => u.kind == .str) := fun u => by simp only [h.kind]
end

open Lean.Parser.Tactic in
set_option hygiene false in
/-- Push `σ` through a parser. -/
macro "rsp" "[" ls:simpLemma,* "]" : tactic => `(tactic|
  simp only [bind, Option.bind_map, Option.map_bind, Option.map_some, Option.map_none, Option.bind_some,
    Function.comp_def, out_fst, out_snd, out_mk, apply_ite (Option.map _), ← List.map_drop,
    kw_map h, sym_map h, pIdent_map h, pKind_map h, pIvField_map h, nextKw_map h, nextSym_map h,
    optKw_fst h, optKw_snd h, optTok_fst, optTok_snd, tokIf_map, nextIs_map, next2_map,
    nextStr_map h, pIdents_map h, pQName_map h, pQNames_map h, h.isKw, h.isKwOf, h.isSym, h.isSymOf, h.isIdent,
    h.bKw, h.bKwOf, h.bSym, h.bSymOf, h.bIdent, h.bNum, h.bQuant, h.bForm, h.bTrim, h.bNegatable, h.bCmpQuant,
    h.bOrdering, h.bDirection, h.bFrame, h.bRows, h.bCount, h.bWinName, h.bAlias, h.bSetOp, h.bLimit, h.bAny, h.bStr,
    $ls,*])

open Lean.Parser.Tactic in
set_option hygiene false in
/-- Push `σ` through a parser with recursive calls. -/
macro "rspr" "[" ls:simpLemma,* "]" : tactic => `(tactic|
  rsp [hr.lv, hr.loop, hr.exprs, hr.whens, hr.sorts, hr.win, hr.query, hr.qnw, hr.qterm, hr.qloop, hr.items,
    hr.sets, hr.grps, hr.wdefs, hr.nameds, hr.rel, hr.relLoop, hr.rels, $ls,*])


theorem pSep_map {α} {f : α → α} {item : List Tok → Option (α × List Tok)}
    {more : List Tok → Option (List α × List Tok)} (h : Keeps σ)
    (hi : ∀ ts, item (ts.map σ) = (item ts).map (out σ f))
    (hm : ∀ ts, more (ts.map σ) = (more ts).map (out σ (List.map f))) (ts : List Tok) :
    pSep item more (ts.map σ) = (pSep item more ts).map (out σ (List.map f)) := by
  simp only [pSep, hi]
  cases item ts with
  | none => rfl
  | some p =>
    rsp []
    cases sym (c% ",") p.2 with
    | none => rfl
    | some ts =>
      rsp [hm, List.map_cons]

section
variable (h : Keeps σ)
include h

theorem pColumns_map (ts : List Tok) : pColumns (ts.map σ) = (pColumns ts).map (out σ (List.map σ)) := by
  rsp [pColumns]
theorem optColumns_map (ts : List Tok) : optColumns (ts.map σ) = (optColumns ts).map (out σ (List.map σ)) := by
  rsp [optColumns, pColumns_map h, List.map_nil]
theorem pString_map (ts : List Tok) : pString (ts.map σ) = (pString ts).map (out σ (CStr.respell σ)) := by
  cases ts with
  | nil => rfl
  | cons t ts =>
    rsp [List.map_cons, pString, h.kind]
    split
    · rfl
    split
    · split
      · cases ts with
        | nil => rfl
        | cons u ts => cases ts <;> rfl
      · rfl
    · rfl
theorem lamHead_map (ts : List Tok) : lamHead (ts.map σ) = (lamHead ts).map (out σ (List.map σ)) := by
  rsp [lamHead, List.map_nil]
  split
  · rfl
  · cases pIdents ts with
    | none => rfl
    | some p => rsp []
theorem optNulls_map (ts : List Tok) : optNulls (ts.map σ) = out σ id (optNulls ts) := by
  rsp [optNulls]
  split
  · rfl
  · split <;> rfl
theorem starArgs_map (ts : List Tok) : starArgs (ts.map σ) = (starArgs ts).map (out σ (Option.map σ)) := by
  match ts with
  | [] => rfl
  | [_] => rfl
  | s :: c :: ts =>
    rsp [List.map_cons, starArgs]
theorem optSep_map (ts : List Tok) : optSep (ts.map σ) = (optSep ts).map (out σ (Option.map (CStr.respell σ))) := by
  rsp [optSep]
  cases sym (c% ",") ts with
  | none => rfl
  | some ts => rsp [pString_map h]
theorem pCount_map (ts : List Tok) : pCount (ts.map σ) = (pCount ts).map (out σ id) := by
  rsp [pCount, id]
theorem optString_map (ts : List Tok) :
    optString (ts.map σ) = (optString ts).map (out σ (Option.map (CStr.respell σ))) := by
  rsp [optString, pString_map h]
theorem optOverflow_map (ts : List Tok) :
    optOverflow (ts.map σ) = (optOverflow ts).map (out σ (Option.map (COverflow.respell σ))) := by
  rsp [optOverflow]
  cases kw (c% "ON") ts with
  | none => rfl
  | some ts =>
    rsp []
    cases kw (c% "OVERFLOW") ts with
    | none => rfl
    | some ts =>
      rsp []
      cases kw (c% "ERROR") ts with
      | some ts => rfl
      | none => rsp [optString_map h, pCount_map h, COverflow.respell, id]
theorem pInterval_map (ts : List Tok) : pInterval (ts.map σ) = (pInterval ts).map (out σ (CE.respell σ)) := by
  rsp [pInterval, pString_map h, pIvTo_map h, CE_respell_interval]
theorem optPrec_map (ts : List Tok) : optPrec (ts.map σ) = (optPrec ts).map (out σ (Option.map σ)) := by
  rsp [optPrec]
  cases sym (c% "(") ts with
  | none => rfl
  | some ts => rsp []
theorem optForm_map (ts : List Tok) : optForm (ts.map σ) = (optForm ts).map (out σ (Option.map σ)) := by
  rsp [optForm]
  cases sym (c% ",") ts with
  | none => rfl
  | some ts => rsp []
theorem pGrouping_map (ts : List Tok) : pGrouping (ts.map σ) = (pGrouping ts).map (out σ (CE.respell σ)) := by
  rsp [pGrouping]
  cases sym (c% "(") ts with
  | none => rfl
  | some ts =>
    rsp []
    cases sym (c% ")") ts with
    | some ts => rfl
    | none => rsp [CE_respell_grouping]
theorem pZoneSpec_map (ts : List Tok) : pZoneSpec (ts.map σ) = (pZoneSpec ts).map (out σ (CE.respell σ)) := by
  rsp [pZoneSpec, pInterval_map h, pString_map h, CE_respell_str]
theorem optNullOrder_map (ts : List Tok) :
    optNullOrder (ts.map σ) = (optNullOrder ts).map (out σ (Option.map σ)) := by
  rsp [optNullOrder]
  cases kw (c% "NULLS") ts with
  | none => rfl
  | some ts => rsp []
theorem optOffset_map (ts : List Tok) :
    optOffset (ts.map σ) = (optOffset ts).map (out σ (Option.map fun p => (σ p.1, p.2.map σ))) := by
  rsp [optOffset]
  cases kw (c% "OFFSET") ts with
  | none => rfl
  | some ts => rsp []
theorem pTies_map (ts : List Tok) : pTies (ts.map σ) = (pTies ts).map (out σ id) := by
  rsp [pTies]
  cases kw (c% "ONLY") ts with
  | some ts => rfl
  | none => rsp [id]
theorem optLimit_map (ts : List Tok) : optLimit (ts.map σ) = (optLimit ts).map (out σ (CLimit.respell σ)) := by
  rsp [optLimit]
  cases kw (c% "LIMIT") ts with
  | some ts => rsp [CLimit.respell]
  | none =>
    rsp []
    cases kw (c% "FETCH") ts with
    | none => rfl
    | some ts => rsp [CLimit.respell, pTies_map h, id]
theorem optAlias_map (ts : List Tok) :
    optAlias (ts.map σ) = (optAlias ts).map (out σ fun p => (p.1, p.2.map σ)) := by
  rsp [optAlias]
  cases kw (c% "AS") ts with
  | none => rsp []
  | some ts => rsp []
theorem optAsColumns_map (ts : List Tok) :
    optAsColumns (ts.map σ) = (optAsColumns ts).map (out σ (List.map σ)) := by
  rsp [optAsColumns]
  cases kw (c% "AS") ts with
  | none => rfl
  | some ts => rsp [pColumns_map h]
theorem pJoinType_map (ts : List Tok) : pJoinType (ts.map σ) = (pJoinType ts).map (out σ id) := by
  rsp [pJoinType]
  cases kw (c% "JOIN") ts with
  | some ts => rfl
  | none =>
    rsp []
    cases kw (c% "INNER") ts with
    | some ts => rsp [id]
    | none =>
      rsp []
      cases kw (c% "LEFT") ts with
      | some ts => rsp [id]
      | none =>
        rsp []
        cases kw (c% "RIGHT") ts with
        | some ts => rsp [id]
        | none => rsp [id]
theorem optOrdinality_map (ts : List Tok) : optOrdinality (ts.map σ) = out σ id (optOrdinality ts) := by
  rsp [optOrdinality]
  split <;> rfl
theorem aliasColumns_map (a : Option Tok) (ts : List Tok) :
    aliasColumns (a.map σ) (ts.map σ) = (aliasColumns a ts).map (out σ (List.map σ)) := by
  rsp [aliasColumns, Option.isSome_map, optColumns_map h, List.map_nil]
omit h in
theorem addAlias_map (x : CR) (b : Bool) (cols : List Tok) (a : Option Tok) :
    addAlias (x.respell σ) b (cols.map σ) (a.map σ) = (addAlias x b cols a).respell σ := by
  cases a <;> rfl
omit h in
theorem isPrimary_respell (c : CE) : (c.respell σ).isPrimary = c.isPrimary := by
  cases c <;> rfl
theorem binOp_map (p : Nat) (t : Tok) :
    (binOp p t = none ∧ binOp p (σ t) = none) ∨ ∃ f g, binOp p t = some f ∧ binOp p (σ t) = some g ∧
      ∀ a b, g (CE.respell σ a) (CE.respell σ b) = (f a b).respell σ := by
  unfold binOp
  split
  · rw [h.isKw]
    split
    · exact .inr ⟨_, _, rfl, rfl, fun _ _ => rfl⟩
    · exact .inl ⟨rfl, rfl⟩
  · rw [h.isKw]
    split
    · exact .inr ⟨_, _, rfl, rfl, fun _ _ => rfl⟩
    · exact .inl ⟨rfl, rfl⟩
  · rw [h.isSym]
    split
    · exact .inr ⟨_, _, rfl, rfl, fun _ _ => rfl⟩
    · exact .inl ⟨rfl, rfl⟩
  · rw [h.isSymOf]
    split
    · exact .inr ⟨_, _, rfl, rfl, fun _ _ => rfl⟩
    · exact .inl ⟨rfl, rfl⟩
  · rw [h.isSymOf]
    split
    · exact .inr ⟨_, _, rfl, rfl, fun _ _ => rfl⟩
    · exact .inl ⟨rfl, rfl⟩
  · exact .inl ⟨rfl, rfl⟩
end

section
variable (h : Keeps σ) {r : Rec} (hr : PNat σ r)
include h hr

theorem pArgs_map (close : Str) (ts : List Tok) :
    pArgs r close (ts.map σ) = (pArgs r close ts).map (out σ (List.map (CE.respell σ))) := by
  rsp [pArgs]
  cases sym close ts with
  | some ts => rfl
  | none => rspr []
theorem pSub_map (ts : List Tok) : pSub r (ts.map σ) = (pSub r ts).map (out σ (CQ.respell σ)) := by
  rspr [pSub]
theorem optExpr_map (k : Str) (ts : List Tok) :
    optExpr r k (ts.map σ) = (optExpr r k ts).map (out σ (Option.map (CE.respell σ))) := by
  rsp [optExpr]
  cases kw k ts with
  | none => rfl
  | some ts => rspr []
theorem optOrder_map (ts : List Tok) :
    optOrder r (ts.map σ) = (optOrder r ts).map (out σ (List.map (CSort.respell σ))) := by
  rsp [optOrder]
  cases kw (c% "ORDER") ts with
  | none => rfl
  | some ts => rspr []
theorem optFilter_map (ts : List Tok) :
    optFilter r (ts.map σ) = (optFilter r ts).map (out σ (Option.map (CE.respell σ))) := by
  rspr [optFilter]
theorem optOver_map (ts : List Tok) :
    optOver r (ts.map σ) = (optOver r ts).map (out σ (Option.map (CWin.respell σ))) := by
  rspr [optOver, CWin_respell_ref]
theorem optNullsOver_map (ts : List Tok) :
    optNullsOver r (ts.map σ) = (optNullsOver r ts).map (out σ fun p => (p.1, p.2.map (CWin.respell σ))) := by
  rspr [optNullsOver, optNulls_map h]
  rcases optNulls ts with ⟨_ | b, ts⟩
  · rspr [id, optOver_map h hr]
  · rspr [id, optOver_map h hr, Option.isSome_map]
theorem callArgs_map (q : Option Tok) (ts : List Tok) :
    callArgs r (q.map σ) (ts.map σ) = (callArgs r q ts).map (out σ (List.map (CE.respell σ))) := by
  rspr [callArgs, Option.isNone_map, List.map_nil]
theorem pCall_map (name : List Tok) (ts : List Tok) :
    pCall r (name.map σ) (ts.map σ) = (pCall r name ts).map (out σ (CE.respell σ)) := by
  rsp [pCall, starArgs_map h]
  cases starArgs ts with
  | some p => rspr [optFilter_map h hr, optOver_map h hr, CE_respell_callStar]
  | none =>
    rspr [callArgs_map h hr, optOrder_map h hr, optFilter_map h hr, optNullsOver_map h hr, CE_respell_call]
theorem pListAgg_map (ts : List Tok) : pListAgg r (ts.map σ) = (pListAgg r ts).map (out σ (CE.respell σ)) := by
  rspr [pListAgg, optSep_map h, optOverflow_map h, CE_respell_listagg]
theorem caseOperand_map (ts : List Tok) :
    caseOperand r (ts.map σ) = (caseOperand r ts).map (out σ (Option.map (CE.respell σ))) := by
  rspr [caseOperand]
theorem pCase_map (ts : List Tok) : pCase r (ts.map σ) = (pCase r ts).map (out σ (CE.respell σ)) := by
  rspr [pCase, caseOperand_map h hr, optExpr_map h hr, CE_respell_case]
theorem pCast_map (b : Bool) (ts : List Tok) : pCast r b (ts.map σ) = (pCast r b ts).map (out σ (CE.respell σ)) := by
  rspr [pCast, pType_map h, CE_respell_cast, List.length_map, List.map_take]
theorem pNormalize_map (ts : List Tok) : pNormalize r (ts.map σ) = (pNormalize r ts).map (out σ (CE.respell σ)) := by
  rspr [pNormalize, optForm_map h, CE_respell_normalize]
theorem pExists_map (ts : List Tok) : pExists r (ts.map σ) = (pExists r ts).map (out σ (CE.respell σ)) := by
  rspr [pExists, pSub_map h hr, CE_respell_exists_]
theorem pPosition_map (ts : List Tok) : pPosition r (ts.map σ) = (pPosition r ts).map (out σ (CE.respell σ)) := by
  rspr [pPosition, CE_respell_position]
theorem optValue_map (k : Str) (ts : List Tok) :
    optValue r k (ts.map σ) = (optValue r k ts).map (out σ (Option.map (CE.respell σ))) := by
  rsp [optValue]
  cases kw k ts with
  | none => rfl
  | some ts => rspr []
theorem pSubstring_map (ts : List Tok) : pSubstring r (ts.map σ) = (pSubstring r ts).map (out σ (CE.respell σ)) := by
  rspr [pSubstring, optValue_map h hr, CE_respell_substring]
theorem pExtract_map (ts : List Tok) : pExtract r (ts.map σ) = (pExtract r ts).map (out σ (CE.respell σ)) := by
  rspr [pExtract, CE_respell_extract]
theorem trimChar_map (ts : List Tok) :
    trimChar r (ts.map σ) = (trimChar r ts).map (out σ (Option.map (CE.respell σ))) := by
  rspr [trimChar]
theorem optComma_map (ts : List Tok) :
    optComma r (ts.map σ) = (optComma r ts).map (out σ (Option.map (CE.respell σ))) := by
  rsp [optComma]
  cases sym (c% ",") ts with
  | none => rfl
  | some ts => rspr []
theorem trimPlain_map (s : Option Tok) (c : Option CE) (ts : List Tok) :
    trimPlain r (s.map σ) (c.map (CE.respell σ)) (ts.map σ) = (trimPlain r s c ts).map (out σ (CE.respell σ)) := by
  cases s with
  | some s => rfl
  | none =>
    cases c with
    | none => rfl
    | some c => rspr [trimPlain, optComma_map h hr, CE_respell_trim]
theorem pTrim_map (ts : List Tok) : pTrim r (ts.map σ) = (pTrim r ts).map (out σ (CE.respell σ)) := by
  rspr [pTrim, trimChar_map h hr, trimPlain_map h hr, CE_respell_trimFrom]
omit h hr in
theorem parenOrRow_map (es : List CE) : parenOrRow (es.map (CE.respell σ)) = (parenOrRow es).respell σ := by
  match es with
  | [] => rfl
  | [_] => rfl
  | a :: b :: es => exact (CE_respell_row σ (a :: b :: es)).symm
theorem pParen_map (ts : List Tok) : pParen r (ts.map σ) = (pParen r ts).map (out σ (CE.respell σ)) := by
  rsp [pParen, lamHead_map h]
  cases lamHead ts with
  | some p => rspr [CE_respell_lam]
  | none => rspr [qStart_map h, pSub_map h hr, CE_respell_sub, parenOrRow_map]
theorem pName_map (t : Tok) (ts : List Tok) :
    pName r (σ t) (ts.map σ) = (pName r t ts).map (out σ (CE.respell σ)) := by
  have hq := pQName_map h (t :: ts)
  rw [List.map_cons] at hq
  rspr [pName, pString_map h, hq, pCall_map h hr, CE_respell_typeCtor, CE_respell_lam, CE_respell_col, List.map_cons,
    List.map_nil]
theorem pPrimary_map (t : Tok) (ts : List Tok) :
    pPrimary r (σ t) (ts.map σ) = (pPrimary r t ts).map (out σ (CE.respell σ)) := by
  have hs := pString_map h (t :: ts)
  rw [List.map_cons] at hs
  rspr [pPrimary, h.isNum, h.kind, pParen_map h hr, hs, pCase_map h hr, pCast_map h hr, pArgs_map h hr,
    intervalNext_map h, pInterval_map h, pString_map h, pListAgg_map h hr, optPrec_map h, pNormalize_map h hr,
    pExists_map h hr, pPosition_map h hr, pSubstring_map h hr, pExtract_map h hr, pTrim_map h hr, pGrouping_map h,
    pName_map h hr, CE_respell_param, CE_respell_num, CE_respell_str, CE_respell_binary, CE_respell_null,
    CE_respell_bool, CE_respell_array, CE_respell_rowKw, CE_respell_doublePrecision, CE_respell_dateTime,
    CE_respell_session]
theorem pPostfix_map (c : CE) (ts : List Tok) :
    pPostfix r (c.respell σ) (ts.map σ) = (pPostfix r c ts).map (out σ (CE.respell σ)) := by
  rspr [pPostfix, ← CE_respell_subscript, ← CE_respell_deref]
theorem pAt_map (c : CE) (ts : List Tok) :
    pAt r (c.respell σ) (ts.map σ) = (pAt r c ts).map (out σ (CE.respell σ)) := by
  rspr [pAt, pZoneSpec_map h, ← CE_respell_atZone]
theorem optEscape_map (ts : List Tok) :
    optEscape r (ts.map σ) = (optEscape r ts).map (out σ (Option.map (CE.respell σ))) := by
  rsp [optEscape]
  cases kw (c% "ESCAPE") ts with
  | none => rfl
  | some ts => rspr []
theorem pNegatable_map (c : CE) (b : Bool) (t : Tok) (ts : List Tok) :
    pNegatable r (c.respell σ) b (σ t) (ts.map σ) = (pNegatable r c b t ts).map (out σ (CE.respell σ)) := by
  rspr [pNegatable, inStart_map h, pSub_map h hr, optEscape_map h hr, CE_respell_between, CE_respell_inSub,
    CE_respell_inList, CE_respell_like]
theorem pIs_map (c : CE) (ts : List Tok) :
    pIs r (c.respell σ) (ts.map σ) = (pIs r c ts).map (out σ (CE.respell σ)) := by
  rsp [pIs]
  cases kw (c% "NULL") (optKw (c% "NOT") ts).2 with
  | some ts' => rfl
  | none => rspr [CE_respell_distinct]
theorem pCompared_map (c : CE) (t : Tok) (ts : List Tok) :
    pCompared r (c.respell σ) (σ t) (ts.map σ) = (pCompared r c t ts).map (out σ (CE.respell σ)) := by
  rspr [pCompared, inStart_map h, pSub_map h hr, CE_respell_quantified, CE_respell_cmp]
theorem pPredicate_map (c : CE) (ts : List Tok) :
    pPredicate r (c.respell σ) (ts.map σ) = (pPredicate r c ts).map (out σ (CE.respell σ)) := by
  cases ts with
  | nil => rfl
  | cons t ts =>
    have hn : (σ t).isNegatable = t.isNegatable := h.bNegatable t
    rspr [List.map_cons, pPredicate, h.isCmp, hn, pCompared_map h hr, pIs_map h hr, pNegatable_map h hr]
theorem pBinLoop_map (p : Nat) (c : CE) (ts : List Tok) :
    pBinLoop r p (c.respell σ) (ts.map σ) = (pBinLoop r p c ts).map (out σ (CE.respell σ)) := by
  cases ts with
  | nil => rfl
  | cons t ts =>
    simp only [List.map_cons, pBinLoop]
    rcases binOp_map h p t with ⟨h1, h2⟩ | ⟨f, g, h1, h2, h3⟩
    · rw [h1, h2]; rfl
    · rw [h1, h2]
      rspr []
      cases r (.lv (p + 1)) ts with
      | none => rfl
      | some x =>
        have e := hr.loop p (f c x.1) x.2
        rw [← h3] at e
        exact e
theorem pOperand_map (p : Nat) (ts : List Tok) :
    pOperand r p (ts.map σ) = (pOperand r p ts).map (out σ (CE.respell σ)) := by
  rspr [pOperand]
theorem pLevel_map (p : Nat) (ts : List Tok) :
    pLevel r p (ts.map σ) = (pLevel r p ts).map (out σ (CE.respell σ)) := by
  unfold pLevel
  split
  · rspr [CE_respell_not_]
  · rspr [signNext_map h, pOperand_map h hr, CE_respell_sign]
  · rspr [pPrimary_map h hr]
  · rspr [pOperand_map h hr]
theorem pLoop_map (p : Nat) (c : CE) (ts : List Tok) :
    pLoop r p (c.respell σ) (ts.map σ) = (pLoop r p c ts).map (out σ (CE.respell σ)) := by
  unfold pLoop
  split
  · exact pPredicate_map h hr c ts
  · exact pAt_map h hr c ts
  · exact pPostfix_map h hr c ts
  · exact pBinLoop_map h hr _ c ts
theorem pWhen_map (ts : List Tok) : pWhen r (ts.map σ) = (pWhen r ts).map (out σ (CWhen.respell σ)) := by
  rspr [pWhen, CWhen_respell_mk]
theorem pWhens_map (ts : List Tok) : pWhens r (ts.map σ) = (pWhens r ts).map (out σ (List.map (CWhen.respell σ))) := by
  rspr [pWhens, pWhen_map h hr, List.map_cons, List.map_nil]
theorem pSort_map (ts : List Tok) : pSort r (ts.map σ) = (pSort r ts).map (out σ (CSort.respell σ)) := by
  rspr [pSort, optNullOrder_map h, CSort_respell_mk]
theorem pBound_map (ts : List Tok) : pBound r (ts.map σ) = (pBound r ts).map (out σ (CBound.respell σ)) := by
  rspr [pBound, CBound_respell_unbounded, CBound_respell_current, CBound_respell_bounded]
theorem optFrame_map (ts : List Tok) : optFrame r (ts.map σ) = (optFrame r ts).map (out σ (CFrame.respell σ)) := by
  rsp [optFrame]
  split
  · cases tokIf Tok.isFrame ts with
    | none => rfl
    | some t =>
      rsp []
      cases kw (c% "BETWEEN") t.2 with
      | none => rspr [pBound_map h hr, CFrame_respell_from_]
      | some ts => rspr [pBound_map h hr, CFrame_respell_between]
  · rfl
theorem optPartition_map (ts : List Tok) :
    optPartition r (ts.map σ) = (optPartition r ts).map (out σ (List.map (CE.respell σ))) := by
  rsp [optPartition]
  cases kw (c% "PARTITION") ts with
  | none => rfl
  | some ts => rspr []
theorem pWin_map (ts : List Tok) : pWin r (ts.map σ) = (pWin r ts).map (out σ (CWin.respell σ)) := by
  rspr [pWin, optPartition_map h hr, optOrder_map h hr, optFrame_map h hr, CWin_respell_spec]
theorem optWith_map (ts : List Tok) :
    optWith r (ts.map σ) = (optWith r ts).map (out σ fun p => (p.1, p.2.map (CNamed.respell σ))) := by
  rsp [optWith]
  cases kw (c% "WITH") ts with
  | none => rfl
  | some ts => rspr []
theorem pQuery_map (ts : List Tok) : pQuery r (ts.map σ) = (pQuery r ts).map (out σ (CQ.respell σ)) := by
  rspr [pQuery, optWith_map h hr, CQ_respell_mk]
theorem pNamed_map (ts : List Tok) : pNamed r (ts.map σ) = (pNamed r ts).map (out σ (CNamed.respell σ)) := by
  rspr [pNamed, optColumns_map h, pSub_map h hr, CNamed_respell_mk]
theorem pQnw_map (ts : List Tok) : pQnw r (ts.map σ) = (pQnw r ts).map (out σ (CQN.respell σ)) := by
  rspr [pQnw, optOrder_map h hr, optOffset_map h, optLimit_map h, CQN_respell_mk]
theorem pQLoop_map (p : Nat) (c : CQT) (ts : List Tok) :
    pQLoop r p (c.respell σ) (ts.map σ) = (pQLoop r p c ts).map (out σ (CQT.respell σ)) := by
  rspr [pQLoop]
  split
  · cases tokIf (Tok.isSetOp p) ts with
    | none => rfl
    | some x =>
      simp only [Option.bind_some]
      cases r (.qterm (p + 1)) (optTok Tok.isQuant x.2).2 with
      | none => rfl
      | some y =>
        have e := hr.qloop p (.set x.1 (optTok Tok.isQuant x.2).1 c y.1) y.2
        rw [CQT_respell_set, ← optTok_fst h.bQuant] at e
        exact e
  · rfl
theorem optFrom_map (ts : List Tok) :
    optFrom r (ts.map σ) = (optFrom r ts).map (out σ (List.map (CR.respell σ))) := by
  rsp [optFrom]
  cases kw (c% "FROM") ts with
  | none => rfl
  | some ts => rspr []
theorem optGroup_map (ts : List Tok) :
    optGroup r (ts.map σ) = (optGroup r ts).map (out σ fun p => (p.1.map σ, p.2.map (CGrp.respell σ))) := by
  rsp [optGroup]
  cases kw (c% "GROUP") ts with
  | none => rfl
  | some ts => rspr []
theorem optWindow_map (ts : List Tok) :
    optWindow r (ts.map σ) = (optWindow r ts).map (out σ (List.map (CWinDef.respell σ))) := by
  rsp [optWindow]
  cases kw (c% "WINDOW") ts with
  | none => rfl
  | some ts => rspr []
theorem pSelect_map (ts : List Tok) : pSelect r (ts.map σ) = (pSelect r ts).map (out σ (CQT.respell σ)) := by
  rspr [pSelect, optFrom_map h hr, optExpr_map h hr, optGroup_map h hr, optWindow_map h hr, CQT_respell_spec]
theorem pQPrimary_map (ts : List Tok) : pQPrimary r (ts.map σ) = (pQPrimary r ts).map (out σ (CQT.respell σ)) := by
  cases ts with
  | nil => rfl
  | cons t ts =>
    rspr [List.map_cons, pQPrimary, pSelect_map h hr, CQT_respell_table, CQT_respell_values, CQT_respell_sub]
theorem pQTerm_map (p : Nat) (ts : List Tok) :
    pQTerm r p (ts.map σ) = (pQTerm r p ts).map (out σ (CQT.respell σ)) := by
  unfold pQTerm
  split
  · rspr []
  · rspr []
  · exact pQPrimary_map h hr ts
  · rfl
theorem pItem_map (ts : List Tok) : pItem r (ts.map σ) = (pItem r ts).map (out σ (CItem.respell σ)) := by
  rsp [pItem]
  cases sym (c% "*") ts with
  | some ts => rfl
  | none => rspr [isPrimary_respell, optAsColumns_map h, optAlias_map h, CItem_respell_allOf, CItem_respell_expr]
theorem pSet_map (ts : List Tok) : pSet r (ts.map σ) = (pSet r ts).map (out σ (CSet.respell σ)) := by
  rspr [pSet, setEnd_map h, inStart_map h, pArgs_map h hr, CSet_respell_paren, CSet_respell_expr]
theorem pGrp_map (ts : List Tok) : pGrp r (ts.map σ) = (pGrp r ts).map (out σ (CGrp.respell σ)) := by
  rspr [pGrp, pArgs_map h hr, pSet_map h hr, CGrp_respell_rollup, CGrp_respell_cube, CGrp_respell_sets,
    CGrp_respell_single]
theorem pWinDef_map (ts : List Tok) : pWinDef r (ts.map σ) = (pWinDef r ts).map (out σ (CWinDef.respell σ)) := by
  rspr [pWinDef, CWinDef_respell_mk]
theorem pCrit_map (ts : List Tok) : pCrit r (ts.map σ) = (pCrit r ts).map (out σ (CCrit.respell σ)) := by
  rsp [pCrit]
  cases kw (c% "ON") ts with
  | some ts => rspr [CCrit_respell_on]
  | none => rspr [pColumns_map h, CCrit_respell_using]
theorem pRelPrimary_map (ts : List Tok) :
    pRelPrimary r (ts.map σ) = (pRelPrimary r ts).map (out σ (CR.respell σ)) := by
  rspr [pRelPrimary, qStart_map h, pSub_map h hr, optOrdinality_map h, id, CR_respell_sub, CR_respell_paren,
    CR_respell_unnest, CR_respell_lateral, CR_respell_table]
theorem pAliased_map (ts : List Tok) : pAliased r (ts.map σ) = (pAliased r ts).map (out σ (CR.respell σ)) := by
  rspr [pAliased, pRelPrimary_map h hr, optAlias_map h, aliasColumns_map h, addAlias_map]
theorem pSampled_map (ts : List Tok) : pSampled r (ts.map σ) = (pSampled r ts).map (out σ (CR.respell σ)) := by
  rsp [pSampled, pAliased_map h hr]
  cases pAliased r ts with
  | none => rfl
  | some x =>
    rsp []
    cases kw (c% "TABLESAMPLE") x.2 with
    | none => rfl
    | some ts => rspr [CR_respell_sample]
theorem pRelLoop_map (c : CR) (ts : List Tok) :
    pRelLoop r (c.respell σ) (ts.map σ) = (pRelLoop r c ts).map (out σ (CR.respell σ)) := by
  rspr [pRelLoop, pSampled_map h hr, pJoinType_map h, pCrit_map h hr, id, ← CR_respell_cross, ← CR_respell_natural,
    ← CR_respell_join]

theorem pStep_nat : PNat σ (pStep r) := fun nt ts => match nt with
  | .lv p => pLevel_map h hr p ts
  | .loop p acc => pLoop_map h hr p acc ts
  | .exprs => pSep_map h (hr.lv 0) hr.exprs ts
  | .whens => pWhens_map h hr ts
  | .sorts => pSep_map h (pSort_map h hr) hr.sorts ts
  | .win => pWin_map h hr ts
  | .query => pQuery_map h hr ts
  | .qnw => pQnw_map h hr ts
  | .qterm p => pQTerm_map h hr p ts
  | .qloop p acc => pQLoop_map h hr p acc ts
  | .items => pSep_map h (pItem_map h hr) hr.items ts
  | .sets => pSep_map h (pSet_map h hr) hr.sets ts
  | .grps => pSep_map h (pGrp_map h hr) hr.grps ts
  | .wdefs => pSep_map h (pWinDef_map h hr) hr.wdefs ts
  | .nameds => pSep_map h (pNamed_map h hr) hr.nameds ts
  | .rel => by
    have e : ∀ ts, pStep r .rel ts = (pSampled r ts).bind fun x => (r (.relLoop x.1) x.2 : Option (CR × List Tok)) :=
      fun _ => rfl
    show pStep r .rel (ts.map σ) = Option.map (out σ (CR.respell σ)) (pStep r .rel ts)
    rw [e, e]
    rspr [pSampled_map h hr]
  | .relLoop acc => pRelLoop_map h hr acc ts
  | .rels => pSep_map h hr.rel hr.rels ts
end

end Treeno
