import Verif.Lemmas.PrintParts
/-!
# Tokens of printed text: whole trees

Every printed tidy tree reads as the tokens of the parse tree `cst`.
-/
namespace Treeno
open Spec

/-- The tokens of a select item whose value has the tokens `ts`. -/
def itemToks (e : Expr) (ts : List Tok) : List Tok := match e with
  | .alias _ n => ts ++ [nameTok n]
  | .star t _ => (starItem (truthy t)).yield
  | _ => ts

theorem itemCst_yield (e : Expr) (c : CE) : (itemCst e c).yield = itemToks e c.yield := by
  cases e <;> simp only [itemCst, itemToks, CItem_yield_expr, aliasPart, flag, Option.toList, List.append_nil,
    List.nil_append, if_neg (show ¬ (false = true) by decide), Bool.false_eq_true, if_false]

theorem itemToks_false {e : Expr} (h : e.Tidy false) (ts : List Tok) : itemToks e ts = ts := by
  cases e with
  | alias v n => rw [Expr_Tidy_alias] at h; exact absurd h.1 (by decide)
  | star t ty => rw [Expr_Tidy_star] at h; exact absurd h.1 (by decide)
  | _ => rfl

theorem items_false : ∀ {es : List Expr}, Expr.Tidys false es → CItem.yields (Expr.items es) = CE.yields (Expr.csts es)
  | [], _ => rfl
  | e :: es, h => by
    rw [Expr_Tidys_cons] at h
    rw [Expr_items_cons, CItem_yields_cons, Expr_csts_cons, CE_yields_cons, itemCst_yield, itemToks_false h.1, items_false h.2]

/-! ## What the induction says of each kind of node -/

def TxE (v : Expr) : Prop := ∀ o x, v.sqlN false o = .ok x → Tx x (v.cst false).yield
def TxEs (vs : List Expr) : Prop := ∀ o xs, Expr.sqls o vs = .ok xs → TxL xs (CE.yields (Expr.csts vs))
def TxOs (vs : List Ord) : Prop := ∀ o xs, Ord.sqls o vs = .ok xs → TxL xs (CSort.yields (Ord.csts vs))
inductive OptTx : Option Str → Option (List Tok) → Prop
  | none : OptTx none none
  | some {s ts} : Tx s ts → OptTx (some s) (some ts)
def TxO (v : Option Expr) : Prop := ∀ o x, Expr.sqlOpt o v = .ok x → OptTx x (CE.yieldOpt (Expr.cstOpt v))
def TxWhens (bs : List (Expr × Expr)) : Prop :=
  ∀ o xs, Expr.whens o bs = .ok xs → TxL xs (CWhen.yields (Expr.cstWhens bs))
def TxB (b : Bound) : Prop := ∀ o x, b.sql o = .ok x → Tx x b.cst.yield
def TxW (w : Win) : Prop := ∀ o x, w.sql o = .ok x → Tx (parenS x) w.cst.yield
def TxWO (w : Option Win) : Prop :=
  ∀ o x, Win.sqlOpt o w = .ok x → OptTx (x.map parenS) (CWin.yieldOpt (Win.cstOpt w))
def TxWs (ws : List (Str × Win)) : Prop := ∀ o xs, Win.namedSqls o ws = .ok xs → TxL xs (CWinDef.yields (Win.cstNamed ws))
def TxQ (q : Query) : Prop := ∀ o x, q.sql o = .ok x → Tx x q.cst.yield
def TxG (g : Grp) : Prop := ∀ o x, g.sql o = .ok x → Tx x g.cst.yield
def TxGs (gs : List Grp) : Prop := ∀ o xs, Grp.sqls o gs = .ok xs → TxL xs (CGrp.yields (Grp.csts gs))
def TxSets (gs : List (List Expr)) : Prop :=
  ∀ o xs, Expr.setSqls o gs = .ok xs → TxL xs (CSet.yields (Expr.cstLists gs))
def TxR (r : Rel) : Prop :=
  ∀ o x, r.sql o = .ok x → if r.isQuery then Tx x r.qcst.yield else Tx x r.cst.yield
def TxC (c : Option Crit) : Prop :=
  ∀ o es, Crit.entriesOpt o c = .ok es → EntL es (optPart [] ((Crit.cstOpt c).map CCrit.yield))

/-! ## Expressions -/

section
variable {v l r u p e : Expr} {o : Opts} {s : Str} {neg : Bool}

theorem TxE.pemdas {cur : Option Nat} {left : Bool} {o o2 : Opts} {x : Str} (h : TxE v)
    (hx : pemdas cur v.prec left (v.sqlN false o) (v.sqlN false o2) = .ok x) :
    Tx x (wrapC (needsParen cur v.prec left) (v.cst false)).yield :=
  tx_pemdas (h o) (h o2) hx

theorem flip_prec (op : BinOp) (neg : Bool) : (if neg then op.flip else op).prec = op.prec := by
  cases neg <;> cases op <;> rfl

theorem tx_e_bin {op : BinOp} (hl : TxE l) (hr : TxE r) (h : (Expr.bin op l r).sqlN neg o = .ok s) :
    Tx s ((Expr.bin op l r).cst neg).yield := by
  rw [Expr_sqlN_bin] at h
  rw [Expr_cst_bin]
  obtain ⟨a, ha, h⟩ := bind_ok h
  obtain ⟨b, hb, h⟩ := bind_ok h
  cases h
  rw [flip_prec] at ha hb
  exact tx_bin (hl.pemdas ha) (hr.pemdas hb)

theorem tx_e_un {op : UnOp} (hv : TxE v) (ht : v.Tidy false)
    (hd : op = .neg → needsParen (some 8) v.prec true = true ∨ v.first ≠ .dash)
    (h : (Expr.un op v).sqlN neg o = .ok s) : Tx s ((Expr.un op v).cst neg).yield := by
  rw [Expr_sqlN_un] at h
  rw [Expr_cst_un, sign_yield]
  obtain ⟨a, ha, h⟩ := bind_ok h
  cases h
  have h1 := hv.pemdas ha
  cases op with
  | pos => exact Tx.pre (Px.lit (c% "+") [symT (c% "+")] (by decide +kernel)) rfl h1
  | neg =>
    refine h1.minus ?_
    have := starts_wrap (b := needsParen (some 8) v.prec true) (starts v false ht)
    refine this.not_dash ?_
    rcases hd rfl with hd | hd
    · rw [hd, if_pos rfl]; exact First.noConfusion
    · split
      · decide
      · exact hd

theorem tx_e_not (hv : TxE v) (hn : v.negatable = true → ∀ o x, v.sqlN true o = .ok x → Tx x (v.cst true).yield)
    (h : (Expr.not v).sqlN neg o = .ok s) : Tx s ((Expr.not v).cst neg).yield := by
  rw [Expr_sqlN_not] at h
  rw [Expr_cst_not]
  cases hb : v.negatable with
  | true => rw [hb, if_pos rfl] at h; exact hn hb _ _ h
  | false =>
    rw [hb, if_neg (by decide)] at h
    obtain ⟨a, ha, h⟩ := bind_ok h
    cases h
    rw [if_neg (by decide), CE_yield_not_]
    exact Tx.pre (Px.lit (c% "NOT ") [kwT (c% "NOT")] (by decide +kernel)) rfl (hv.pemdas ha)

theorem tx_e_isNull (hv : TxE v) (h : (Expr.isNull v).sqlN neg o = .ok s) :
    Tx s ((Expr.isNull v).cst neg).yield := by
  rw [Expr_sqlN_isNull] at h
  rw [Expr_cst_isNull, CE_yield_isNull]
  obtain ⟨a, ha, h⟩ := bind_ok h
  cases h
  have h1 := hv.pemdas ha
  cases neg with
  | false => exact h1.post (Px.litW (c% " IS NULL") [kwT (c% "IS"), kwT (c% "NULL")] (by decide +kernel)) rfl (Ends.of rfl)
  | true =>
    exact h1.post (Px.litW (c% " IS NOT NULL") [kwT (c% "IS"), kwT (c% "NOT"), kwT (c% "NULL")] (by decide +kernel)) rfl
      (Ends.of rfl)

theorem tx_e_between (hv : TxE v) (hl : TxE l) (hu : TxE u) (h : (Expr.between v l u).sqlN neg o = .ok s) :
    Tx s ((Expr.between v l u).cst neg).yield := by
  rw [Expr_sqlN_between] at h
  rw [Expr_cst_between, CE_yield_between]
  obtain ⟨a, ha, h⟩ := bind_ok h
  obtain ⟨b, hb, h⟩ := bind_ok h
  obtain ⟨c, hc, h⟩ := bind_ok h
  cases h
  have h1 := (hl.pemdas hb).infix (Px.lit (c% " AND ") [kwT (c% "AND")] (by decide +kernel)) rfl (hu.pemdas hc)
  have h2 := (hv.pemdas ha).infix (px_not neg (w := c% " BETWEEN ") (ts := [kwT (c% "BETWEEN")]) (by decide +kernel) (by decide +kernel))
    (safe_not neg rfl) h1
  rw [List.append_assoc] at h2
  simpa only [List.append_assoc, List.cons_append, List.nil_append] using h2

theorem tx_e_inList {es : List Expr} (hv : TxE v) (he : TxEs es) (h : (Expr.inList v es).sqlN neg o = .ok s) :
    Tx s ((Expr.inList v es).cst neg).yield := by
  rw [Expr_sqlN_inList] at h
  rw [Expr_cst_inList, CE_yield_inList]
  obtain ⟨xs, hxs, h⟩ := bind_ok h
  obtain ⟨j, hj, h⟩ := bind_ok h
  obtain ⟨a, ha, h⟩ := bind_ok h
  cases h
  have h1 := Tx.paren (px_commas (he _ _ hxs) hj)
  have h2 := (hv.pemdas ha).infix (px_not neg (w := c% " IN ") (ts := [kwT (c% "IN")]) (by decide +kernel) (by decide +kernel))
    (safe_not neg rfl) h1
  simpa only [List.append_assoc, List.cons_append, List.nil_append, parenS] using h2

theorem tx_e_inQuery {q : Query} (hv : TxE v) (hq : TxQ q) (h : (Expr.inQuery v q).sqlN neg o = .ok s) :
    Tx s ((Expr.inQuery v q).cst neg).yield := by
  rw [Expr_sqlN_inQuery] at h
  rw [Expr_cst_inQuery, CE_yield_inSub]
  obtain ⟨a, ha, h⟩ := bind_ok h
  obtain ⟨j, hj, h⟩ := bind_ok h
  cases h
  have h1 := Tx.paren (hq _ _ hj).px
  have h2 := (hv.pemdas ha).infix (px_not neg (w := c% " IN ") (ts := [kwT (c% "IN")]) (by decide +kernel) (by decide +kernel))
    (safe_not neg rfl) h1
  simpa only [List.append_assoc, List.cons_append, List.nil_append, parenS] using h2

theorem OptTx.post {s pre : Str} {ts tp : List Tok} {x : Option Str} {y : Option (List Tok)} (h : Tx s ts)
    (hp : Px true pre tp) (hs : SafeHd pre = true) (ho : OptTx x y) : Tx (s ++ optText pre x) (ts ++ optPart tp y) := by
  cases ho with
  | none => simpa [optText, optPart] using h
  | some hx =>
    have := h.infix hp hs hx
    rw [List.append_assoc] at this
    exact this

theorem tx_e_like {e : Option Expr} (hv : TxE v) (hp : TxE p) (he : TxO e) (h : (Expr.like v p e).sqlN neg o = .ok s) :
    Tx s ((Expr.like v p e).cst neg).yield := by
  rw [Expr_sqlN_like] at h
  rw [Expr_cst_like, CE_yield_like]
  obtain ⟨a, ha, h⟩ := bind_ok h
  obtain ⟨b, hb, h⟩ := bind_ok h
  obtain ⟨c, hc, h⟩ := bind_ok h
  cases h
  have h1 := OptTx.post (hp.pemdas hb) (Px.lit (c% " ESCAPE ") [kwT (c% "ESCAPE")] (by decide +kernel)) rfl (he _ _ hc)
  have h2 := (hv.pemdas ha).infix (px_not neg (w := c% " LIKE ") (ts := [kwT (c% "LIKE")]) (by decide +kernel) (by decide +kernel))
    (safe_not neg rfl) h1
  simpa only [List.append_assoc, List.cons_append, List.nil_append] using h2

theorem tx_e_lam {ins : List Str} (hne : ins ≠ []) (hw : ∀ n ∈ ins, IsWord n) (hv : TxE v)
    (h : (Expr.lam ins v).sqlN neg o = .ok s) : Tx s ((Expr.lam ins v).cst neg).yield := by
  rw [Expr_sqlN_lam] at h
  rw [Expr_cst_lam]
  obtain ⟨i, hi, h⟩ := bind_ok h
  obtain ⟨a, ha, h⟩ := bind_ok h
  cases h
  exact tx_lam hne hw hi (hv _ _ ha)

theorem tx_e_array {es : List Expr} (he : TxEs es) (h : (Expr.array es).sqlN neg o = .ok s) :
    Tx s ((Expr.array es).cst neg).yield := by
  rw [Expr_sqlN_array] at h
  rw [Expr_cst_array, CE_yield_array]
  obtain ⟨xs, hxs, h⟩ := bind_ok h
  obtain ⟨j, hj, h⟩ := bind_ok h
  cases h
  exact Tx.wrap (Px.lit (c% "ARRAY[") [kwT (c% "ARRAY"), symT (c% "[")] (by decide +kernel)) rfl (px_commas (he _ _ hxs) hj)
    (Px.lit (c% "]") [symT (c% "]")] (by decide +kernel)) rfl (Ends.of rfl)

theorem tx_e_row {es : List Expr} (he : TxEs es) (h : (Expr.row es).sqlN neg o = .ok s) :
    Tx s ((Expr.row es).cst neg).yield := by
  rw [Expr_sqlN_row] at h
  rw [Expr_cst_row, CE_yield_row]
  obtain ⟨xs, hxs, h⟩ := bind_ok h
  obtain ⟨j, hj, h⟩ := bind_ok h
  cases h
  exact Tx.paren (px_commas (he _ _ hxs) hj)

theorem tx_e_typeCtor {w t : Str} (hw : StrOk w) (ht : IsWord t) :
    Tx (t ++ c% " " ++ quoteLit w) (CE.typeCtor (wordOf t) (.basic (strTok w))).yield := by
  rw [CE_yield_typeCtor]
  exact (Tx.word ht).infix Px.space rfl (Tx.string hw)

theorem tx_e_cast {tr : Bool} {t : Ty} (hv : TxE v) (h : (Expr.cast tr v t).sqlN neg o = .ok s) :
    Tx s ((Expr.cast tr v t).cst neg).yield := by
  rw [Expr_sqlN_cast] at h
  rw [Expr_cst_cast, CE_yield_cast]
  obtain ⟨a, ha, h⟩ := bind_ok h
  cases h
  have h1 : Px false (a ++ (c% " AS " ++ t.sql)) ((v.cst false).yield ++ ([kwT (c% "AS")] ++ tyToks t)) :=
    (hv _ _ ha).px.app ((Px.lit (c% " AS ") [kwT (c% "AS")] (by decide +kernel)).app (Tx.ty t) (.inl rfl)) (.inr rfl)
  cases tr with
  | false =>
    have := Tx.call (Px.lit (c% "CAST(") ([kwT (c% "CAST")] ++ [symT (c% "(")]) (by decide +kernel)) rfl h1
    simpa only [List.append_assoc, List.cons_append, List.nil_append, if_neg (show ¬ (false = true) by decide), Bool.false_eq_true, if_false] using this
  | true =>
    have := Tx.call (Px.lit (c% "TRY_CAST(") ([kwT (c% "TRY_CAST")] ++ [symT (c% "(")]) (by decide +kernel)) rfl h1
    simpa only [List.append_assoc, List.cons_append, List.nil_append, if_true] using this

theorem tx_e_subscript {i : Expr} (hv : TxE v) (hi : TxE i) (h : (Expr.subscript v i).sqlN neg o = .ok s) :
    Tx s ((Expr.subscript v i).cst neg).yield := by
  rw [Expr_sqlN_subscript] at h
  rw [Expr_cst_subscript, CE_yield_subscript]
  obtain ⟨a, ha, h⟩ := bind_ok h
  obtain ⟨b, hb, h⟩ := bind_ok h
  cases h
  have h1 := Tx.wrap (Px.lit (c% "[") [symT (c% "[")] (by decide +kernel)) rfl (hi _ _ hb).px
    (Px.lit (c% "]") [symT (c% "]")] (by decide +kernel)) rfl (Ends.of rfl)
  have h2 := (hv _ _ ha).post h1.px rfl h1.ends
  simpa only [List.append_assoc, List.cons_append, List.nil_append] using h2

/-- The branches of a CASE, one per line. -/
theorem px_lines {d : Str} (hd : Px true d []) (hs : SafeHd d = true) : ∀ {ss tss}, TxL ss tss → ss ≠ [] →
    Px false (join d ss) tss.flatten ∧ Ends (join d ss)
  | _, _, .nil, h => absurd rfl h
  | _, _, @TxL.cons s ts ss tss h1 h2, _ => by
    cases h2 with
    | nil => exact ⟨h1.px.cast (by simp), h1.ends⟩
    | cons h3 h4 =>
      obtain ⟨a, b⟩ := px_lines hd hs (.cons h3 h4) (by simp)
      have : Px false _ _ := h1.px.app (hd.app a (.inl rfl)) (.inr (SafeHd_append hs))
      rw [join_cons_ne _ _ (by simp), List.append_assoc]
      exact ⟨this, b.app.app⟩

theorem TxL.app {a b t u} (h1 : TxL a t) (h2 : TxL b u) : TxL (a ++ b) (t ++ u) := by
  induction h1 with
  | nil => exact h2
  | cons h _ ih => exact .cons h ih

theorem tx_e_case {v : Option Expr} {bs : List (Expr × Expr)} {e : Option Expr} (hv : TxO v) (hne : bs ≠ []) (hb : TxWhens bs)
    (he : TxO e) (h : (Expr.case v bs e).sqlN neg o = .ok s) : Tx s ((Expr.case v bs e).cst neg).yield := by
  rw [Expr_sqlN_case] at h
  rw [Expr_cst_case, CE_yield_case]
  obtain ⟨ws, hws, h⟩ := bind_ok h
  obtain ⟨es, hes, h⟩ := bind_ok h
  obtain ⟨vs, hvs, h⟩ := bind_ok h
  cases h
  have h1 := hb _ _ hws
  have h2 : TxL (es.map (c% "ELSE " ++ ·)).toList (((CE.yieldOpt (Expr.cstOpt e)).map (kwT (c% "ELSE") :: ·)).toList) := by
    have := he _ _ hes
    generalize CE.yieldOpt (Expr.cstOpt e) = y at *
    cases this with
    | none => exact .nil
    | some hx => exact .cons (Tx.pre (Px.lit (c% "ELSE ") [kwT (c% "ELSE")] (by decide +kernel)) rfl hx) .nil
  have hne' : ws ++ (es.map (c% "ELSE " ++ ·)).toList ≠ [] := by
    intro h
    have h3 := (List.append_eq_nil_iff.1 h).1
    subst h3
    match bs, hne, hws with
    | (a, b) :: bs, _, hws =>
      rw [Expr_whens_cons] at hws
      obtain ⟨_, _, h⟩ := bind_ok hws
      obtain ⟨_, _, h⟩ := bind_ok h
      obtain ⟨_, _, h⟩ := bind_ok h
      cases h
  have hS : SafeHd (spacing o) = true := by simpa using safe_spacing o []
  obtain ⟨h3, h4⟩ := px_lines (Px.spacing o) hS (h1.app h2) hne'
  have h5 : Px false (spacing o ++ _) _ := (Px.spacing o).app h3 (.inl rfl)
  have h6 := h5.ind 4
  rw [← pad_ind h5.clean (.inr h4.app)] at h6
  have h7 : SafeHd (pad (spacing o ++ join (spacing o) (ws ++ (es.map (c% "ELSE " ++ ·)).toList)) 4) = true := by
    rw [pad_ind h5.clean (.inr h4.app), ind_append]
    unfold spacing
    cases o.mode <;> rfl
  have h8 : Px false (spacing o ++ c% "END") [kwT (c% "END")] := (Px.spacing o).app (Px.litW (c% "END") [kwT (c% "END")] (by decide +kernel)) (.inl rfl)
  have h9 := h6.app h8 (.inr (safe_spacing o _))
  have h10 : Px false (c% "CASE " ++ optText [] vs) (kwT (c% "CASE") :: optPart [] (CE.yieldOpt (Expr.cstOpt v))) := by
    have hc := Px.lit (c% "CASE ") [kwT (c% "CASE")] (by decide +kernel)
    have := hv _ _ hvs
    generalize CE.yieldOpt (Expr.cstOpt v) = y at *
    cases this with
    | none => exact (by simpa [optText, optPart] using hc.weak)
    | some hx => exact hc.app hx.px (.inl rfl)
  have h11 : Px false _ _ := h10.app h9 (.inr (SafeHd_append h7))
  refine ⟨?_, ?_, .inl rfl⟩
  · have : kwT (c% "CASE") :: optPart [] (CE.yieldOpt (Expr.cstOpt v)) ++
        ([] ++ (CWhen.yields (Expr.cstWhens bs) ++ (Option.map (fun x => kwT (c% "ELSE") :: x) (CE.yieldOpt (Expr.cstOpt e))).toList).flatten ++ [kwT (c% "END")]) =
        kwT (c% "CASE") :: (optPart [] (CE.yieldOpt (Expr.cstOpt v)) ++ ((CWhen.yields (Expr.cstWhens bs)).flatten ++ (optPart [kwT (c% "ELSE")] (CE.yieldOpt (Expr.cstOpt e)) ++ [kwT (c% "END")]))) := by
      cases CE.yieldOpt (Expr.cstOpt e) <;> simp [optPart]
    rw [← this]
    simpa only [List.append_assoc, List.cons_append, List.nil_append] using h11
  · exact Ends.app (Ends.of rfl)

/-! ## Function calls -/

def wordB : Str → Bool
  | [] => false
  | c :: s => isIdStart c && s.all isIdChar

theorem wordB_ok {w : Str} (h : wordB w = true) : IsWord w := by
  cases w with
  | nil => cases h
  | cons c s =>
    simp only [wordB, Bool.and_eq_true, List.all_eq_true] at h
    exact ⟨c, s, rfl, h.1, h.2⟩

theorem fn_word (f : Fn) : IsWord f.name := wordB_ok (by cases f <;> decide)
theorem agg_word (f : Agg) : IsWord f.name := wordB_ok (by cases f <;> decide)

theorem word_bg {w : Str} (h : IsWord w) : Bg w = true := by
  obtain ⟨c, s, rfl, h, -⟩ := h
  exact isIdStart_bg h s

theorem tx_call {w s : Str} {ts : List Tok} (hw : IsWord w) (h : Px false s ts) :
    Tx (w ++ c% "(" ++ s ++ c% ")") (wordOf w :: inParens ts) := by
  have h1 : Px true (w ++ c% "(") ([wordOf w] ++ [symT (c% "(")]) := (Tx.word hw).px.app Px.lpar (.inr rfl)
  exact Tx.call h1 (Bg.app (word_bg hw)) h

theorem tx_e_func {f : Fn} {es : List Expr} (he : TxEs es) (h : (Expr.func f es).sqlN neg o = .ok s) :
    Tx s ((Expr.func f es).cst neg).yield := by
  rw [Expr_sqlN_func] at h
  rw [Expr_cst_func, CE_yield_call]
  obtain ⟨xs, hxs, h⟩ := bind_ok h
  obtain ⟨j, hj, h⟩ := bind_ok h
  cases h
  refine (tx_call (fn_word f) (px_commas (he _ _ hxs) hj)).cast ?_
  simp [qname, sepBy, nullsPart, optIn, optPart, orderPart, clause, CSort_yields_nil, CE_yieldOpt_none, CWin_yieldOpt_none]

theorem orderBy_tx {ob : List Ord} {os : List Str} {ot : Str} (hob : TxL os (CSort.yields (Ord.csts ob)))
    (h : orderByText o os = .ok ot) : Tx ot (orderPart (CSort.yields (Ord.csts ob))) := by
  unfold orderByText at h
  split at h
  · cases h
  · rename_i hne
    obtain ⟨j, hj, h⟩ := bind_ok h
    cases h
    have hne' : os ≠ [] := by rintro rfl; exact hne rfl
    have := Tx.pre (Px.lit (c% "ORDER BY ") [kwT (c% "ORDER"), kwT (c% "BY")] (by decide +kernel)) rfl (tx_commas hob hj hne')
    unfold orderPart clause
    rw [← hob.isEmpty, if_neg hne]
    exact this

theorem agg_args {ob : List Ord} {os : List Str} {args a : Str} {ta : List Tok} (hob : TxL os (CSort.yields (Ord.csts ob)))
    (ha : Px false args ta) (hne : os ≠ [] → Tx args ta) (h : aggArgs o args os = .ok a) :
    Px false a (ta ++ orderPart (CSort.yields (Ord.csts ob))) := by
  unfold aggArgs at h
  split at h
  · rename_i he
    cases h
    unfold orderPart clause
    rw [← hob.isEmpty, if_pos he, List.append_nil]
    exact ha
  · rename_i he
    obtain ⟨ot, hot, h⟩ := bind_ok h
    have h1 := orderBy_tx hob hot
    have hne' : os ≠ [] := by rintro rfl; exact he rfl
    exact (tx_join Px.space rfl (.cons (hne hne') (.cons h1 .nil)) h (by simp)).px

theorem ent_opt {k : Str} {tk : List Tok} (hk : Tx k tk) {x : Option Str} {y : Option (List Tok)} (h : OptTx x y) :
    EntL (optEntry k x) (optPart tk y) := by
  cases h with
  | none => exact .nil
  | some h => exact .one hk h

theorem OptTx.map {f : Str → Str} {g : List Tok → List Tok} (hf : ∀ s ts, Tx s ts → Tx (f s) (g ts)) {x y} (h : OptTx x y) :
    OptTx (x.map f) (y.map g) := by
  cases h with
  | none => exact .none
  | some h => exact .some (hf _ _ h)

theorem optPart_map (pre post : List Tok) (y : Option (List Tok)) (tk : List Tok) :
    optPart tk (y.map fun ts => pre ++ (ts ++ post)) = optIn (tk ++ pre) post y := by
  cases y <;> simp [optPart, optIn]

/-- The clauses after the arguments of an aggregate. -/
theorem px_after {cs : Str} {es : Entries} {ts : List Tok} (he : EntL es ts) (h : printEntries true es o = .ok cs) :
    (cs = [] ∧ ts = []) ∨ (Px false (pad (spacing o ++ cs) o.spaces) ts ∧ SafeHd (pad (spacing o ++ cs) o.spaces) = true ∧
      Ends (pad (spacing o ++ cs) o.spaces) ∧ cs ≠ []) := by
  by_cases hne : es = []
  · subst hne
    cases he
    left
    exact ⟨by rw [printEntries_eq h]; rfl, rfl⟩
  · right
    have h1 := tx_print h he hne
    have h2 : Px false (spacing o ++ cs) ts := (Px.spacing o).app h1.px (.inl rfl)
    have h3 : Ends (spacing o ++ cs) := h1.ends.app
    rw [pad_ind h2.clean (.inr h3)]
    refine ⟨h2.ind _, ?_, h3.ind _, h1.ends.1⟩
    rw [ind_append]
    unfold spacing
    cases o.mode <;> rfl

theorem tx_aft {a cs : Str} {ta ts : List Tok} {es : Entries} (ha : Tx a ta) (he : EntL es ts)
    (h : printEntries true es o = .ok cs) : Tx (a ++ (if cs.isEmpty then [] else pad (spacing o ++ cs) o.spaces)) (ta ++ ts) := by
  rcases px_after he h with ⟨rfl, rfl⟩ | ⟨h1, h2, h3, h4⟩
  · simpa using ha
  · rw [if_neg (by simpa using h4)]
    exact ha.post h1 h2 h3

theorem star_args {t : Option Str} : (starItem (truthy t)).yield =
    optIn [] [symT (c% ".")] (((truthy t).map wordOf).map fun x => [x]) ++ [symT (c% "*")] := by
  cases truthy t with
  | none => rfl
  | some w => rw [starItem, CItem_yield_allOf, CE_yield_col]; rfl

theorem tx_e_agg {f : Agg} {as : List Expr} {ob : List Ord} {fl : Option Expr} {w : Option Win} {ign : Bool}
    (ha : ∀ o xs, Expr.sqls o as = .ok xs → TxL xs (CItem.yields (Expr.items as)))
    (hat : Expr.Tidys (isStarArg as) as)
    (hs : isStarArg as = true → ob = [] ∧ ign = false) (hob0 : as = [] → ob = []) (hob : TxOs ob) (hfl : TxO fl) (hw : TxWO w)
    (h : (Expr.agg f as ob fl w ign).sqlN neg o = .ok s) : Tx s ((Expr.agg f as ob fl w ign).cst neg).yield := by
  rw [Expr_sqlN_agg] at h
  rw [Expr_cst_agg]
  obtain ⟨xs, hxs, h⟩ := bind_ok h
  obtain ⟨j, hj, h⟩ := bind_ok h
  obtain ⟨os, hos, h⟩ := bind_ok h
  obtain ⟨a, hag, h⟩ := bind_ok h
  obtain ⟨fs, hfs, h⟩ := bind_ok h
  obtain ⟨ws, hws, h⟩ := bind_ok h
  obtain ⟨cs, hcs, h⟩ := bind_ok h
  cases h
  have hxl := ha _ _ hxs
  have hol := hob _ _ hos
  have h1 : Px false a (commas (CItem.yields (Expr.items as)) ++ orderPart (CSort.yields (Ord.csts ob))) := by
    refine agg_args hol (px_commas hxl hj) (fun hne => tx_commas hxl hj ?_) hag
    rintro rfl
    apply hne
    have : as = [] := by
      cases as with
      | nil => rfl
      | cons e es =>
        rw [Expr_sqls_cons] at hxs
        obtain ⟨_, _, h⟩ := bind_ok hxs
        obtain ⟨_, _, h⟩ := bind_ok h
        cases h
    rw [hob0 this, Ord_sqls_nil] at hos
    cases hos; rfl
  have hf : EntL (optEntry (c% "FILTER") (fs.map fun s => c% "(WHERE " ++ s ++ c% ")"))
      (optIn [kwT (c% "FILTER"), symT (c% "("), kwT (c% "WHERE")] [symT (c% ")")] (CE.yieldOpt (Expr.cstOpt fl))) := by
    have := ent_opt (Tx.kw (w := c% "FILTER") (by decide +kernel)) ((hfl _ _ hfs).map (f := fun s => c% "(WHERE " ++ s ++ c% ")")
      (g := fun ts => [symT (c% "("), kwT (c% "WHERE")] ++ (ts ++ [symT (c% ")")])) (fun s ts hs =>
        Tx.wrap (Px.lit (c% "(WHERE ") [symT (c% "("), kwT (c% "WHERE")] (by decide +kernel)) rfl hs.px Px.rpar rfl (Ends.of rfl)))
    rw [optPart_map] at this
    exact this
  have hi : EntL (if ign then [(c% "IGNORE", c% "NULLS")] else []) (nullsPart (if ign then some true else none)) := by
    cases ign with
    | false => exact .nil
    | true => exact .one (Tx.kw (by decide +kernel)) (Tx.kw (by decide +kernel))
  have ho := ent_opt (Tx.kw (w := c% "OVER") (by decide +kernel)) (hw _ _ hws)
  have h2 := tx_aft (tx_call (agg_word f) h1) ((hf.app hi).app ho) hcs
  unfold aggCst
  cases hst : isStarArg as with
  | false =>
    rw [hst] at hat
    rw [items_false hat] at h2
    rw [if_neg (show ¬ (false = true) by decide), CE_yield_call]
    refine h2.cast ?_
    simp [qname, sepBy]
  | true =>
    rw [if_pos rfl, CE_yield_callStar]
    obtain ⟨rfl, rfl⟩ := hs hst
    refine h2.cast ?_
    have : ∃ t ty, as = [.star t ty] := by
      unfold isStarArg at hst
      split at hst
      · exact ⟨_, _, rfl⟩
      · cases hst
    obtain ⟨t, ty, rfl⟩ := this
    rw [Expr_items_cons, Expr_items_nil, CItem_yields_cons, CItem_yields_nil]
    show wordOf f.name :: inParens (commas [(starItem (truthy t)).yield] ++ _) ++ _ = _
    rw [star_args]
    simp [qname, sepBy, commas, starArg, Ord_csts_nil, CSort_yields_nil, orderPart, clause, nullsPart]

theorem sep_tx {a x sep : Str} {ta : List Tok} (ha : Tx a ta) (hs : StrOk sep) (h : sepArgs o a sep = .ok x) :
    Tx x (ta ++ optPart [symT (c% ",")] ((sepCst sep).map CStr.yield)) := by
  unfold sepArgs at h
  unfold sepCst
  by_cases hc : sep ≠ c% " "
  · rw [if_pos hc] at h
    rw [if_pos hc]
    have := tx_commas (.cons ha (.cons (Tx.string hs) .nil)) h (by simp)
    exact this
  · rw [if_neg hc] at h
    rw [if_neg hc]
    cases h
    simpa [optPart] using ha

theorem ov_tx {a x : Str} {ov : Option (Str × Bool)} {ta : List Tok} (ha : Tx a ta) (hs : IfAny (fun f => StrOk f.1) ov)
    (h : overflowArgs o a ov = .ok x) : Tx x (ta ++ optPart [] ((overflowCst ov).map COverflow.yield)) := by
  cases ov with
  | none => cases h; simpa [overflowCst, optPart] using ha
  | some f =>
    obtain ⟨f, b⟩ := f
    have h1 : Tx (overflowText (f, b)) (COverflow.yield (.truncate (some (.basic (strTok f))) b)) := by
      have hp := Px.lit (c% "ON OVERFLOW TRUNCATE ") [kwT (c% "ON"), kwT (c% "OVERFLOW"), kwT (c% "TRUNCATE")] (by decide +kernel)
      have hf := Tx.pre hp rfl (Tx.string (hs _ rfl))
      unfold overflowText
      cases b with
      | false => exact hf.post (Px.litW (c% " WITHOUT COUNT") [kwT (c% "WITHOUT"), kwT (c% "COUNT")] (by decide +kernel)) rfl (Ends.of rfl)
      | true => exact hf.post (Px.litW (c% " WITH COUNT") [kwT (c% "WITH"), kwT (c% "COUNT")] (by decide +kernel)) rfl (Ends.of rfl)
    exact tx_join Px.space rfl (.cons ha (.cons h1 .nil)) h (by simp)

theorem tx_e_listagg {sep : Str} {ov : Option (Str × Bool)} {ob : List Ord} (hv : TxE v) (hs : StrOk sep)
    (hov : IfAny (fun f => StrOk f.1) ov) (hob : TxOs ob) (h : (Expr.listagg v sep ov ob).sqlN neg o = .ok s) :
    Tx s ((Expr.listagg v sep ov ob).cst neg).yield := by
  rw [Expr_sqlN_listagg] at h
  rw [Expr_cst_listagg, CE_yield_listagg]
  obtain ⟨a, ha, h⟩ := bind_ok h
  obtain ⟨b, hb, h⟩ := bind_ok h
  obtain ⟨os, hos, h⟩ := bind_ok h
  obtain ⟨ot, hot, h⟩ := bind_ok h
  cases h
  obtain ⟨x, hx, hb⟩ := bind_ok hb
  have h1 := ov_tx (sep_tx (hv _ _ ha) hs hx) hov hb
  have h2 := Tx.call (Px.lit (c% "LISTAGG(") ([kwT (c% "LISTAGG")] ++ [symT (c% "(")]) (by decide +kernel)) rfl h1.px
  have h3 := Tx.call (Px.lit (c% "WITHIN GROUP (") ([kwT (c% "WITHIN"), kwT (c% "GROUP")] ++ [symT (c% "(")]) (by decide +kernel)) rfl
    (orderBy_tx (hob _ _ hos) hot).px
  have h4 : Px false (spacing o ++ (c% "WITHIN GROUP (" ++ ot ++ c% ")")) _ := (Px.spacing o).app h3.px (.inl rfl)
  have h5 : Ends (spacing o ++ (c% "WITHIN GROUP (" ++ ot ++ c% ")")) := h3.ends.app
  have h6 : SafeHd (pad (spacing o ++ (c% "WITHIN GROUP (" ++ ot ++ c% ")")) o.spaces) = true := by
    rw [pad_ind h4.clean (.inr h5), ind_append]
    unfold spacing
    cases o.mode <;> rfl
  have h7 := h4.ind o.spaces
  have h8 := h5.ind o.spaces
  rw [← pad_ind h4.clean (.inr h5)] at h7 h8
  exact (h2.post h7 h6 h8).cast (by simp)

theorem tx_cur (f : CurFn) {p : Int} (hp : 0 ≤ p) : Tx (curTimeText f p) (CE.dateTime (kwT f.name) (precCst p)).yield := by
  rw [CE_yield_dateTime]
  have hk : Tx f.name [kwT f.name] := Tx.kw (by cases f <;> decide +kernel)
  unfold curTimeText precCst
  by_cases h : p ≠ 3
  · rw [if_pos h, if_pos h]
    have h1 := Tx.int p
    rw [decide_eq_false (Int.not_lt.2 hp)] at h1
    have h2 := Tx.paren h1.px
    exact hk.post h2.px rfl h2.ends
  · rw [if_neg h, if_neg h]
    rw [List.append_nil]
    exact hk

theorem tx_sess (f : SessFn) : Tx f.name (sessCst f).yield := by
  cases f <;> first
    | (unfold sessCst; rw [CE_yield_dateTime]; exact Tx.kw (by decide +kernel))
    | (unfold sessCst; rw [CE_yield_session]; exact Tx.kw (by decide +kernel))

end

/-! ## Clauses and queries -/

section
variable {o : Opts} {s : Str}

theorem tx_ord {v : Expr} {d nf : Bool} (hv : TxE v) (h : (Ord.mk v d nf).sql o = .ok s) :
    ∃ ts, CSort.yields [(Ord.mk v d nf).cst] = [ts] ∧ Tx s ts := by
  rw [Ord_sql_mk] at h
  rw [Ord_cst_mk, CSort_yields_cons, CSort_yields_nil]
  obtain ⟨a, ha, h⟩ := bind_ok h
  cases h
  refine ⟨_, rfl, ?_⟩
  have h1 := hv _ _ ha
  have hD : Px false (c% " DESC") [kwT (c% "DESC")] := Px.litW _ _ (by decide +kernel)
  have hN : Px false (c% " NULLS FIRST") [kwT (c% "NULLS"), kwT (c% "FIRST")] := Px.litW _ _ (by decide +kernel)
  cases d <;> cases nf
  · exact (by simpa [optPart] using h1)
  · have := h1.post hN rfl (Ends.of rfl)
    simpa [optPart] using this
  · have := h1.post hD rfl (Ends.of rfl)
    simpa [optPart] using this
  · have := (h1.post hD rfl (Ends.of rfl)).post hN rfl (Ends.of rfl)
    simpa [optPart] using this

theorem tx_bounded {t : BoundType} {e : Expr} (he : TxE e) (h : (Bound.bounded t e).sql o = .ok s) :
    Tx s (Bound.bounded t e).cst.yield := by
  rw [Bound_sql_bounded] at h
  rw [Bound_cst_bounded, CBound_yield_bounded]
  obtain ⟨a, ha, h⟩ := bind_ok h
  cases h
  exact (he _ _ ha).infix Px.space rfl (Tx.kw (by cases t <;> decide +kernel))

theorem tx_unbounded {t : BoundType} (h : (Bound.unbounded t).sql o = .ok s) : Tx s (Bound.unbounded t).cst.yield := by
  rw [Bound_sql_unbounded] at h
  rw [Bound_cst_unbounded, CBound_yield_unbounded]
  cases h
  exact Tx.pre (Px.lit (c% "UNBOUNDED ") [kwT (c% "UNBOUNDED")] (by decide +kernel)) rfl (Tx.kw (by cases t <;> decide +kernel))

theorem tx_litW {w : Str} {ts : List Tok} (h : (simple false w && toks w == ts) = true) (he : (w.getLast?.any (· != '\n')) = true)
    (hb : Bg w = true) : Tx w ts := ⟨Px.litW w ts h, Ends.of he, .inl hb⟩

theorem tx_current (h : Bound.current.sql o = .ok s) : Tx s Bound.current.cst.yield := by
  rw [Bound_sql_current] at h
  rw [Bound_cst_current, CBound_yield_current]
  cases h
  exact tx_litW (by decide +kernel) rfl rfl

theorem ent_list {k : Str} (hk : isKeyword k = true) {ss : List Str} {tss es} (h : TxL ss tss)
    (he : listEntry o k [] ss = .ok es) : EntL es (clause [kwT k] tss) := by
  unfold listEntry at he
  unfold clause
  rw [← h.isEmpty]
  split at he
  · rename_i hne; cases he; rw [if_pos hne]; exact .nil
  · rename_i hne
    rw [if_neg hne]
    obtain ⟨j, hj, he⟩ := bind_ok he
    cases he
    exact .one (Tx.kw hk) (tx_commas h hj (by rintro rfl; exact hne rfl))

theorem ent_listBy {k : Str} (hk : isKeyword k = true) {ss : List Str} {tss es} (h : TxL ss tss)
    (he : listEntry o k (c% "BY ") ss = .ok es) : EntL es (clause [kwT k, kwT (c% "BY")] tss) := by
  unfold listEntry at he
  unfold clause
  rw [← h.isEmpty]
  split at he
  · rename_i hne; cases he; rw [if_pos hne]; exact .nil
  · rename_i hne
    rw [if_neg hne]
    obtain ⟨j, hj, he⟩ := bind_ok he
    cases he
    have h2 := Tx.pre (Px.lit (c% "BY ") [kwT (c% "BY")] (by decide +kernel)) rfl (tx_commas h hj (by rintro rfl; exact hne rfl))
    exact (EntL.one (Tx.kw hk) h2).cast (by simp)

theorem tx_win {p : Option Str} {ob : List Ord} {ps : List Expr} {f : FrameType} {st en : Bound} (hp : IfAny IsWord (truthy p))
    (hob : TxOs ob) (hps : TxEs ps) (hst : TxB st) (hen : TxB en) (h : (Win.mk p ob ps f st en).sql o = .ok s) :
    Tx (parenS s) (Win.mk p ob ps f st en).cst.yield := by
  rw [Win_sql_mk] at h
  rw [Win_cst_mk, CWin_yield_spec, CFrame_yield_between]
  obtain ⟨xs, hxs, h⟩ := bind_ok h
  obtain ⟨pae, hpae, h⟩ := bind_ok h
  obtain ⟨os, hos, h⟩ := bind_ok h
  obtain ⟨obe, hobe, h⟩ := bind_ok h
  obtain ⟨a, ha, h⟩ := bind_ok h
  obtain ⟨b, hb, h⟩ := bind_ok h
  have h1 : EntL (parentEntry p) ((truthy p).map wordOf).toList := by
    unfold parentEntry
    cases ht : truthy p with
    | none => exact .nil
    | some w => exact .cons (Tx.word (hp w ht)) (.inl ⟨rfl, rfl⟩) .nil
  have h2 := ent_listBy (by decide +kernel) (hps _ _ hxs) hpae
  have h3 := ent_listBy (by decide +kernel) (hob _ _ hos) hobe
  have h4 : Tx (join (c% " ") [c% "BETWEEN", a, c% "AND", b]) (kwT (c% "BETWEEN") :: (st.cst.yield ++ kwT (c% "AND") :: en.cst.yield)) := by
    have e1 := (hst _ _ ha).infix (Px.lit (c% " AND ") [kwT (c% "AND")] (by decide +kernel)) rfl (hen _ _ hb)
    have e2 := Tx.pre (Px.lit (c% "BETWEEN ") [kwT (c% "BETWEEN")] (by decide +kernel)) rfl e1
    have e3 : join (c% " ") [c% "BETWEEN", a, c% "AND", b] = c% "BETWEEN " ++ (a ++ c% " AND " ++ b) := by
      simp [join]
    rw [e3]
    exact e2
  have h5 := EntL.one (Tx.kw (w := f.text) (by cases f <;> decide +kernel)) h4
  have h6 := tx_print h (((h1.app h2).app h3).app h5) (by simp)
  refine (Tx.paren h6.px).cast ?_
  simp [orderPart]

theorem set_tx {vs : List Expr} {xs : List Str} (h : TxL xs (CE.yields (Expr.csts vs))) (hs : setText o xs = .ok s) :
    Tx s (setCst (Expr.csts vs)).yield := by
  have len : ∀ cs : List CE, ∀ xs, TxL xs (CE.yields cs) → setText o xs = .ok s → Tx s (setCst cs).yield := by
    intro cs xs h hs
    match cs, h, hs with
    | [], .nil, hs =>
      obtain ⟨j, hj, hs⟩ := bind_ok hs
      cases hs
      show Tx _ (CSet.paren []).yield
      rw [CSet_yield_paren]
      exact Tx.paren (px_commas .nil hj)
    | [c], .cons h1 h2, hs =>
      cases h2
      cases hs
      show Tx _ (CSet.expr c).yield
      rw [CSet_yield_expr]
      exact h1
    | c :: d :: cs, .cons h1 (.cons h2 h3), hs =>
      obtain ⟨j, hj, hs⟩ := bind_ok hs
      cases hs
      show Tx _ (CSet.paren (c :: d :: cs)).yield
      rw [CSet_yield_paren]
      exact Tx.paren (px_commas (.cons h1 (.cons h2 h3)) hj)
  exact len _ _ h hs

theorem tx_groupBy {gs : List Grp} {d : Bool} (hne : gs ≠ []) (hg : TxGs gs) (h : (GroupBy.mk gs d).sql o = .ok s) :
    Tx s ((groupQuant (some (.mk gs d))).toList ++ commas (CGrp.yields (Grp.csts gs))) := by
  rw [GroupBy_sql_mk] at h
  obtain ⟨xs, hxs, h⟩ := bind_ok h
  obtain ⟨j, hj, h⟩ := bind_ok h
  cases h
  have hl := hg _ _ hxs
  have hx : xs ≠ [] := by
    rintro rfl
    cases gs with
    | nil => exact hne rfl
    | cons g gs =>
      rw [Grp_sqls_cons] at hxs
      obtain ⟨_, _, h⟩ := bind_ok hxs
      obtain ⟨_, _, h⟩ := bind_ok h
      cases h
  have h1 := tx_commas hl hj hx
  cases d with
  | false => exact h1
  | true => exact Tx.pre (Px.lit (c% "DISTINCT ") [kwT (c% "DISTINCT")] (by decide +kernel)) rfl h1

theorem ent_rows {off lim : Option Int} (h1 : IfAny (fun n => 0 ≤ n) off) (h2 : IfAny (fun n => 0 ≤ n) lim) :
    EntL (rowsEntries off lim) (offsetPart ((rowsTok off).map fun t => (t, none)) ++ (limitCst (rowsTok lim)).yield) := by
  unfold rowsEntries
  refine .app ?_ ?_
  · cases off with
    | none => exact .nil
    | some n =>
      show EntL (if n ≠ 0 then _ else _) _
      unfold rowsTok
      by_cases hn : n ≠ 0
      · simp only [if_pos hn]
        have hi := Tx.int n
        rw [decide_eq_false (Int.not_lt.2 (h1 n rfl))] at hi
        exact .one (Tx.kw (by decide +kernel)) hi
      · simp only [if_neg hn]; exact .nil
  · cases lim with
    | none => exact .nil
    | some n =>
      show EntL (if n ≠ 0 then _ else _) _
      unfold rowsTok
      by_cases hn : n ≠ 0
      · simp only [if_pos hn]
        have hi := Tx.int n
        rw [decide_eq_false (Int.not_lt.2 (h2 n rfl))] at hi
        exact .one (Tx.kw (by decide +kernel)) hi
      · simp only [if_neg hn]; exact .nil

theorem sqls_ne {es : List Expr} {xs : List Str} (hne : es ≠ []) (h : Expr.sqls o es = .ok xs) : xs ≠ [] := by
  rintro rfl
  cases es with
  | nil => exact hne rfl
  | cons g gs =>
    rw [Expr_sqls_cons] at h
    obtain ⟨_, _, h⟩ := bind_ok h
    obtain ⟨_, _, h⟩ := bind_ok h
    cases h

theorem rel_query {r : Rel} (h : r.isQuery = true) : r.cst.yield = inParens r.qcst.yield := by
  cases r with
  | query q => rw [Rel_cst_query, Rel_qcst_query, CR_yield_sub]
  | _ => cases h

/-- A relation where a query is put in parentheses. -/
theorem tx_relStr {r : Rel} {nl : Bool} {x : Str} (hr : TxR r) (h : r.sql o = .ok x) :
    Tx (relStr o r.isQuery nl x) r.cst.yield := by
  have h1 := hr _ _ h
  unfold relStr
  cases hq : r.isQuery with
  | false => rw [hq] at h1; exact h1
  | true =>
    rw [hq, if_pos rfl] at h1
    rw [if_pos rfl, rel_query hq]
    refine Tx.paren ?_
    split
    · exact Px.newline.app h1.px (.inl rfl)
    · exact h1.px

theorem tx_from {r : Rel} {x : Str} (hr : TxR r) (h : r.sql o = .ok x) : Tx (fromText (some r) x) r.cst.yield := by
  have h1 := hr _ _ h
  unfold fromText
  cases hq : r.isQuery with
  | false => simp only [hq]; rw [hq] at h1; exact h1
  | true =>
    rw [hq, if_pos rfl] at h1
    simp only [hq, if_true]
    rw [rel_query hq]
    exact (Tx.paren h1.px).pad 1

theorem ent_from {fr : Option Rel} {fs : Option Str} (hr : ∀ r, fr = some r → TxR r) (h : Rel.sqlOpt o fr = .ok fs) :
    EntL (optEntry (c% "FROM") (fs.map (fromText fr))) (clause [kwT (c% "FROM")] (CR.yields (Rel.cstOpt fr))) := by
  cases fr with
  | none => rw [Rel_sqlOpt_none] at h; cases h; rw [Rel_cstOpt_none, CR_yields_nil]; exact .nil
  | some r =>
    rw [Rel_sqlOpt_some] at h
    obtain ⟨x, hx, h⟩ := bind_ok h
    cases h
    rw [Rel_cstOpt_some, CR_yields_cons, CR_yields_nil]
    exact .one (Tx.kw (by decide +kernel)) (tx_from (hr r rfl) hx)

theorem ent_group {gb : Option GroupBy} {g : Option Str} (hg : ∀ gs d, gb = some (.mk gs d) → gs ≠ [] ∧ TxGs gs)
    (h : GroupBy.sqlOpt o gb = .ok g) : EntL (optEntry (c% "GROUP") (g.map (c% "BY " ++ ·)))
      (clause (kwT (c% "GROUP") :: kwT (c% "BY") :: (groupQuant gb).toList) (CGrp.yields (GroupBy.cstOpt gb))) := by
  cases gb with
  | none => rw [GroupBy_sqlOpt_none] at h; cases h; rw [GroupBy_cstOpt_none, CGrp_yields_nil]; exact .nil
  | some gb =>
    obtain ⟨gs, d⟩ := gb
    obtain ⟨hne, hg⟩ := hg gs d rfl
    rw [GroupBy_sqlOpt_some] at h
    obtain ⟨x, hx, h⟩ := bind_ok h
    cases h
    have h1 := Tx.pre (Px.lit (c% "BY ") [kwT (c% "BY")] (by decide +kernel)) rfl (tx_groupBy hne hg hx)
    have h2 := EntL.one (Tx.kw (w := c% "GROUP") (by decide +kernel)) h1
    rw [GroupBy_cstOpt_some, GroupBy_cst_mk]
    refine h2.cast ?_
    cases gs with
    | nil => exact absurd rfl hne
    | cons g gs =>
      rw [Grp_csts_cons, CGrp_yields_cons]
      simp [clause]

/-- The text of a body between its WITH and its row clauses. -/
theorem tx_select {items : List Expr} {fr : Option Rel} {wh : Option Expr} {gb : Option GroupBy} {hv : Option Expr} {d : Bool}
    {wins : List (Str × Win)} {we ce : Except Err Entries} {tw tc : List Tok} (hne : items ≠ [])
    (hi : ∀ o xs, Expr.sqls o items = .ok xs → TxL xs (CItem.yields (Expr.items items)))
    (hr : ∀ r, fr = some r → TxR r) (hwh : TxO wh) (hg : ∀ gs d, gb = some (.mk gs d) → gs ≠ [] ∧ TxGs gs) (hhv : TxO hv)
    (hw : TxWs wins) (h1 : ∀ x, we = .ok x → EntL x tw) (h2 : ∀ x, ce = .ok x → EntL x tc) (h : (QBody.select items fr wh gb hv d wins).sql o we ce = .ok s) :
    Tx s (tw ++ ((QBody.select items fr wh gb hv d wins).cst.yield ++ tc)) := by
  rw [QBody_sql_select] at h
  rw [QBody_cst_select, CQT_yield_spec]
  obtain ⟨we, hwe, h⟩ := bind_ok h
  replace h1 := h1 _ hwe
  obtain ⟨xs, hxs, h⟩ := bind_ok h
  obtain ⟨j, hj, h⟩ := bind_ok h
  obtain ⟨fs, hfs, h⟩ := bind_ok h
  obtain ⟨wx, hwx, h⟩ := bind_ok h
  obtain ⟨g, hgx, h⟩ := bind_ok h
  obtain ⟨hx, hhx, h⟩ := bind_ok h
  obtain ⟨ws, hws, h⟩ := bind_ok h
  obtain ⟨wie, hwie, h⟩ := bind_ok h
  obtain ⟨ce, hce, h⟩ := bind_ok h
  replace h2 := h2 _ hce
  have e0 : EntL [(c% "SELECT", if d then c% "DISTINCT " ++ j else j)]
      (kwT (c% "SELECT") :: ((distinctTok d).toList ++ commas (CItem.yields (Expr.items items)))) := by
    have := tx_commas (hi _ _ hxs) hj (sqls_ne hne hxs)
    cases d with
    | false => exact EntL.one (Tx.kw (by decide +kernel)) this
    | true => exact EntL.one (Tx.kw (by decide +kernel)) (Tx.pre (Px.lit (c% "DISTINCT ") [kwT (c% "DISTINCT")] (by decide +kernel)) rfl this)
  have e1 := ent_from hr hfs
  have e2 := ent_opt (Tx.kw (w := c% "WHERE") (by decide +kernel)) (hwh _ _ hwx)
  have e3 := ent_group hg hgx
  have e4 := ent_opt (Tx.kw (w := c% "HAVING") (by decide +kernel)) (hhv _ _ hhx)
  have e5 := ent_list (by decide +kernel) (hw _ _ hws) hwie
  have := tx_print h (((((((h1.app e0).app e1).app e2).app e3).app e4).app e5).app h2) (by simp)
  exact this.cast (by simp)

theorem query_yield {b : QBody} {off lim : Option Int} {ob : List Ord} {w : List Named} (h : b.isSet = false) :
    (Query.mk b off lim ob w).cst.yield = clause [kwT (c% "WITH")] (CNamed.yields (Named.csts w)) ++ (b.cst.yield ++
      (orderPart (CSort.yields (Ord.csts ob)) ++ (offsetPart ((rowsTok off).map fun t => (t, none)) ++ (limitCst (rowsTok lim)).yield))) := by
  rw [Query_cst_mk, h, queryCst, if_neg (by decide), CQ_yield_mk, CQN_yield_mk]
  rfl

theorem set_yield {b : QBody} {off lim : Option Int} {ob : List Ord} {w : List Named} (h : b.isSet = true) :
    (Query.mk b off lim ob w).cst.yield = b.cst.yield := by
  rw [Query_cst_mk, h, queryCst, if_pos rfl, CQ_yield_mk, CQN_yield_mk]
  simp [CNamed_yields_nil, clause, CSort_yields_nil, orderPart, offsetPart, CLimit.yield]

theorem noWith_yield {q : Query} (h : q.noWith) : q.cst.noWith.yield = q.cst.yield := by
  obtain ⟨b, off, lim, ob, w⟩ := q
  have hw : w = [] := h
  subst hw
  rw [Query_cst_mk, Named_csts_nil]
  unfold queryCst
  split <;> (rw [CQ.noWith, CQ_yield_mk, CNamed_yields_nil]; rfl)

theorem tx_set {k : SetKind} {l r : Query} {d : Bool} {we ce : Except Err Entries} (hl : TxQ l) (hr : TxQ r) (hwl : l.noWith) (hwr : r.noWith)
    (h : (QBody.set k l r d).sql o we ce = .ok s) : Tx s (QBody.set k l r d).cst.yield := by
  rw [QBody_sql_set] at h
  rw [QBody_cst_set, CQT_yield_set, CQT_yield_sub, CQT_yield_sub, noWith_yield hwl, noWith_yield hwr]
  obtain ⟨a, ha, h⟩ := bind_ok h
  obtain ⟨b, hb, h⟩ := bind_ok h
  cases h
  have h1 := Tx.paren (hl _ _ ha).px
  have h2 := Tx.paren (hr _ _ hb).px
  have hk : Tx k.text [kwT k.text] := Tx.kw (by cases k <;> decide +kernel)
  have hq : Tx (quantText d) [kwT (quantText d)] := Tx.kw (by cases d <;> decide +kernel)
  have h0 : ∀ x, relStr o true false x = parenS x := by
    intro x
    unfold relStr
    rw [if_pos rfl, if_neg (by simp)]
    rfl
  rw [h0, h0]
  have hS : SafeHd (spacing o) = true := by simpa using safe_spacing o []
  have := h1.infix (Px.spacing o) hS (hk.infix Px.space rfl (hq.infix (Px.spacing o) hS h2))
  simpa using this

theorem tx_values {es : List Expr} {we ce : Except Err Entries} {tw tc : List Tok} (hne : es ≠ []) (he : TxEs es)
    (h1 : ∀ x, we = .ok x → EntL x tw) (h2 : ∀ x, ce = .ok x → EntL x tc) (h : (QBody.values es).sql o we ce = .ok s) : Tx s (tw ++ ((QBody.values es).cst.yield ++ tc)) := by
  rw [QBody_sql_values] at h
  rw [QBody_cst_values, CQT_yield_values]
  obtain ⟨we, hwe, h⟩ := bind_ok h
  replace h1 := h1 _ hwe
  obtain ⟨xs, hxs, h⟩ := bind_ok h
  obtain ⟨j, hj, h⟩ := bind_ok h
  obtain ⟨ce, hce, h⟩ := bind_ok h
  replace h2 := h2 _ hce
  have e0 := EntL.one (Tx.kw (w := c% "VALUES") (by decide +kernel)) (tx_commas (he _ _ hxs) hj (sqls_ne hne hxs))
  exact (tx_print h ((h1.app e0).app h2) (by simp)).cast (by simp)

theorem tx_tableQ {t : TableRef} {we ce : Except Err Entries} {tw tc : List Tok} (ht : TableOk t)
    (h1 : ∀ x, we = .ok x → EntL x tw) (h2 : ∀ x, ce = .ok x → EntL x tc) (h : (QBody.table t).sql o we ce = .ok s) : Tx s (tw ++ ((QBody.table t).cst.yield ++ tc)) := by
  rw [QBody_sql_table] at h
  rw [QBody_cst_table, CQT_yield_table]
  obtain ⟨we, hwe, h⟩ := bind_ok h
  replace h1 := h1 _ hwe
  obtain ⟨ce, hce, h⟩ := bind_ok h
  replace h2 := h2 _ hce
  have e0 := EntL.one (Tx.kw (w := c% "TABLE") (by decide +kernel)) (tx_table ht)
  exact (tx_print h ((h1.app e0).app h2) (by simp)).cast (by simp)

theorem tx_named {r : Rel} {a : Str} {cols : List Str} (hr : TxR r) (ha : NameOk a) (hc : ∀ n ∈ cols, IsWord n)
    (h : (Named.mk r a cols).sql o = .ok s) : Tx s (Named.mk r a cols).cst.yield := by
  rw [Named_sql_mk] at h
  rw [Named_cst_mk, CR_yield_alias]
  obtain ⟨x, hx, h⟩ := bind_ok h
  obtain ⟨c, hcx, h⟩ := bind_ok h
  cases h
  have h1 := (tx_relStr (nl := true) hr hx).infix Px.space rfl (Tx.name ha)
  rcases tx_cols hc hcx with ⟨rfl, rfl⟩ | ⟨h2, h3, h4⟩
  · simpa [columns, aliasPart, flag] using h1
  · have := h1.post h2 h3 h4
    simpa [aliasPart, flag] using this

theorem tx_with {r : Rel} {a : Str} {cols : List Str} (hr : TxR r) (ha : NameOk a) (hq : r.isQuery = true) (hc : cols = [])
    (h : (Named.mk r a cols).namedSql o = .ok s) : ∃ ts, CNamed.yields [(Named.mk r a cols).cstWith] = [ts] ∧ Tx s ts := by
  subst hc
  rw [Named_namedSql_mk] at h
  rw [Named_cstWith_mk, CNamed_yields_cons, CNamed_yields_nil]
  obtain ⟨c, hcx, h⟩ := bind_ok h
  obtain ⟨x, hx, h⟩ := bind_ok h
  cases hcx
  cases h
  refine ⟨_, rfl, ?_⟩
  have h1 := (Tx.name ha).infix (Px.lit (c% " AS ") [kwT (c% "AS")] (by decide +kernel)) rfl (tx_relStr (nl := true) hr hx)
  rw [rel_query hq] at h1
  simpa [columns] using h1

theorem tx_joinKey {t : JoinType} {nat : Bool} (h : (t = .cross ∧ nat = false) ∨ t ≠ .cross) :
    Tx ((if nat then c% "NATURAL " else []) ++ t.text ++ c% " JOIN")
      (flag nat [kwT (c% "NATURAL")] ++ (if t = .cross then [kwT (c% "CROSS"), kwT (c% "JOIN")] else (joinTypeCst t).yield)) := by
  cases nat with
  | false =>
    cases t <;> exact tx_litW (by decide +kernel) rfl rfl
  | true =>
    cases t with
    | cross => exact absurd h (by simp)
    | _ => exact tx_litW (by decide +kernel) rfl rfl

theorem tx_join_rel {l r : Rel} {t : JoinType} {nat : Bool} {cr : Option Crit} (hl : TxR l) (hr : TxR r)
    (hj : JoinOk t nat cr.isSome) (hc : TxC cr) (h : (Rel.join l r t nat cr).sql o = .ok s) :
    Tx s (Rel.join l r t nat cr).cst.yield := by
  rw [Rel_sql_join] at h
  rw [Rel_cst_join]
  obtain ⟨a, ha, h⟩ := bind_ok h
  obtain ⟨b, hb, h⟩ := bind_ok h
  obtain ⟨ce, hce, h⟩ := bind_ok h
  have e1 : EntL [(relStr o l.isQuery true a, [])] l.cst.yield := by
    have := EntL.cons (tx_relStr (nl := true) hl ha) (.inl ⟨rfl, rfl⟩) .nil
    simpa using this
  have e2 := EntL.one (tx_joinKey (t := t) (nat := nat) (by
    rcases hj with ⟨a, b, _⟩ | ⟨a, _⟩
    · exact .inl ⟨a, b⟩
    · exact .inr a)) (tx_relStr (nl := true) hr hb)
  have h1 := tx_print h ((e1.app e2).app (hc _ _ hce)) (by simp)
  refine h1.cast ?_
  unfold joinCst
  cases cr with
  | none =>
    rw [Crit_cstOpt_none]
    rcases hj with ⟨rfl, rfl, -⟩ | ⟨hx, hn⟩
    · simp [flag, optPart, CR_yield_cross]
    · have : nat = true := hn
      subst this
      simp [flag, optPart, CR_yield_natural, hx]
  | some c =>
    rw [Crit_cstOpt_some]
    rcases hj with ⟨-, -, hb⟩ | ⟨hx, hn⟩
    · cases hb
    · have : nat = false := hn
      subst this
      simp [flag, optPart, CR_yield_join, hx]

theorem tx_unnest {as : List Expr} (ha : TxEs as) (h : (Rel.unnest as false).sql o = .ok s) :
    Tx s (Rel.unnest as false).cst.yield := by
  rw [Rel_sql_unnest] at h
  rw [Rel_cst_unnest, CR_yield_unnest]
  obtain ⟨xs, hxs, h⟩ := bind_ok h
  obtain ⟨j, hj, h⟩ := bind_ok h
  cases h
  have := Tx.call (Px.lit (c% "UNNEST(") ([kwT (c% "UNNEST")] ++ [symT (c% "(")]) (by decide +kernel)) rfl (px_commas (ha _ _ hxs) hj)
  simpa [join, flag] using this

theorem tx_lateral {q : Query} (hq : TxQ q) (h : (Rel.lateral q).sql o = .ok s) : Tx s (Rel.lateral q).cst.yield := by
  rw [Rel_sql_lateral] at h
  rw [Rel_cst_lateral, CR_yield_lateral]
  obtain ⟨x, hx, h⟩ := bind_ok h
  cases h
  exact Tx.call (Px.lit (c% "LATERAL(") ([kwT (c% "LATERAL")] ++ [symT (c% "(")]) (by decide +kernel)) rfl (hq _ _ hx).px

theorem tx_sample {r : Rel} {t : SampleType} {p : Expr} (hr : TxR r) (hp : TxE p) (h : (Rel.sample r t p).sql o = .ok s) :
    Tx s (Rel.sample r t p).cst.yield := by
  rw [Rel_sql_sample] at h
  rw [Rel_cst_sample, CR_yield_sample]
  obtain ⟨x, hx, h⟩ := bind_ok h
  obtain ⟨y, hy, h⟩ := bind_ok h
  cases h
  have h1 : Tx (relStr o (r.isQuery || r.isJoin) false x) (wrapR r.isJoin r.cst).yield := by
    cases hq : r.isQuery with
    | true =>
      have hj : r.isJoin = false := by
        cases r with
        | query q => rfl
        | _ => cases hq
      rw [hj, wrapR, if_neg (by decide)]
      have := tx_relStr (nl := false) hr hx
      rw [hq] at this
      exact this
    | false =>
      have := tx_relStr (nl := false) hr hx
      rw [hq] at this
      cases hj : r.isJoin with
      | false => rw [wrapR, if_neg (by decide)]; exact this
      | true =>
        rw [wrapR, if_pos rfl, CR_yield_paren]
        show Tx (relStr o true false x) _
        have e : relStr o true false x = parenS x := by
          unfold relStr
          rw [if_pos rfl, if_neg (by simp)]
          rfl
        rw [e]
        exact Tx.paren this.px
  have h2 : Px true (c% " TABLESAMPLE " ++ t.text ++ c% "(") ([kwT (c% "TABLESAMPLE"), kwT t.text, symT (c% "(")]) := by
    cases t <;> exact Px.lit _ _ (by decide +kernel)
  have h3 : Px false (c% " TABLESAMPLE " ++ t.text ++ c% "(" ++ (y ++ c% ")")) _ := h2.app ((hp _ _ hy).px.app Px.rpar.weak (.inr rfl)) (.inl rfl)
  have h4 := h1.post h3 rfl (Ends.app (Ends.app (Ends.of rfl)))
  simpa [inParens] using h4

theorem ent_using {cols : List Str} {es : Entries} (hne : cols ≠ []) (hc : ∀ n ∈ cols, IsWord n)
    (h : (Crit.using cols).entries o = .ok es) : EntL es (Crit.using cols).cst.yield := by
  rw [Crit_entries_using] at h
  rw [Crit_cst_using, CCrit_yield_using]
  obtain ⟨j, hj, h⟩ := bind_ok h
  cases h
  have := Tx.paren (px_commas (txl_words cols hc) hj)
  refine (EntL.one (Tx.kw (w := c% "USING") (by decide +kernel)) this).cast ?_
  unfold columns
  rw [if_neg (by simpa using hne), map_words]
  rfl

theorem ent_on {e : Expr} {es : Entries} (he : TxE e) (h : (Crit.on e).entries o = .ok es) : EntL es (Crit.on e).cst.yield := by
  rw [Crit_entries_on] at h
  rw [Crit_cst_on, CCrit_yield_on]
  obtain ⟨j, hj, h⟩ := bind_ok h
  cases h
  exact EntL.one (Tx.kw (w := c% "ON") (by decide +kernel)) ((he _ _ hj).pad _)

theorem tx_query {b : QBody} {off lim : Option Int} {ob : List Ord} {w : List Named}
    (hb : ∀ o we ce tw tc x, (∀ y, we = .ok y → EntL y tw) → (∀ y, ce = .ok y → EntL y tc) → b.sql o we ce = .ok x →
      if b.isSet then Tx x b.cst.yield else Tx x (tw ++ (b.cst.yield ++ tc)))
    (h1 : IfAny (fun n => 0 ≤ n) off) (h2 : IfAny (fun n => 0 ≤ n) lim) (hob : TxOs ob)
    (hw : ∀ o xs, Named.namedSqls o w = .ok xs → TxL xs (CNamed.yields (Named.csts w)))
    (h : (Query.mk b off lim ob w).sql o = .ok s) : Tx s (Query.mk b off lim ob w).cst.yield := by
  rw [Query_sql_mk] at h
  have := hb _ _ _ _ _ _ (fun we hwe => by
    obtain ⟨xs, hxs, hwe⟩ := bind_ok hwe
    exact ent_list (by decide +kernel) (hw _ _ hxs) hwe) (fun ce hce => by
    obtain ⟨os, hos, hce⟩ := bind_ok hce
    obtain ⟨oe, hoe, hce⟩ := bind_ok hce
    cases hce
    exact (ent_listBy (by decide +kernel) (hob _ _ hos) hoe).app (ent_rows h1 h2)) h
  cases hs : b.isSet with
  | true => rw [hs, if_pos rfl] at this; rw [set_yield hs]; exact this
  | false =>
    rw [hs, if_neg (by decide)] at this
    rw [query_yield hs]
    exact this

end

/-! ## The induction -/

theorem ex {v : Expr} {x : Str} {ts : List Tok} (h : v.Tidy false) (k : Tx x (itemToks v ts)) : Tx x ts := by
  rwa [itemToks_false h] at k

mutual
theorem tx_expr : ∀ (e : Expr) (it neg : Bool), e.Tidy it → ∀ o s, e.sqlN neg o = .ok s → Tx s (itemToks e (e.cst neg).yield)
  | .lit v t, _, _, h, _, _, hs => by
    rw [Expr_Tidy_lit] at h
    rw [Expr_sqlN_lit] at hs
    cases hs
    rw [Expr_cst_lit]; exact tx_lit h
  | .field n t ty, _, _, h, _, _, hs => by
    rw [Expr_Tidy_field] at h
    rw [Expr_sqlN_field] at hs
    cases hs
    rw [Expr_cst_field]; exact tx_field h.1 h.2
  | .fieldOf _ _ _, _, _, h, _, _, _ => h.elim
  | .alias v n, _, _, h, o, _, hs => by
    rw [Expr_Tidy_alias] at h
    rw [Expr_sqlN_alias] at hs
    obtain ⟨a, ha, hs⟩ := bind_ok hs
    cases hs
    rw [Expr_cst_alias]
    exact (ex h.2.2 (tx_expr v false false h.2.2 o a ha)).infix Px.space rfl (Tx.name h.2.1)
  | .star t ty, _, _, h, _, _, hs => by
    rw [Expr_Tidy_star] at h
    rw [Expr_sqlN_star] at hs
    cases hs
    exact tx_star h.2
  | .starOf _ _, _, _, h, _, _, _ => h.elim
  | .aliasedStar _ _, _, _, h, _, _, _ => h.elim
  | .var n, _, _, h, _, _, hs => by
    rw [Expr_Tidy_var] at h
    rw [Expr_sqlN_var] at hs
    cases hs
    rw [Expr_cst_var, CE_yield_col]; exact Tx.word h
  | .lam ins b, _, _, h, _, _, hs => by
    rw [Expr_Tidy_lam] at h
    exact tx_e_lam h.1 h.2.1 (fun o x hx => ex h.2.2 (tx_expr b false false h.2.2 o x hx)) hs
  | .un op v, _, _, h, _, _, hs => by
    rw [Expr_Tidy_un] at h
    exact tx_e_un (fun o x hx => ex h.1 (tx_expr v false false h.1 o x hx)) h.1 h.2 hs
  | .bin op l r, _, _, h, _, _, hs => by
    rw [Expr_Tidy_bin] at h
    exact tx_e_bin (fun o x hx => ex h.1 (tx_expr l false false h.1 o x hx)) (fun o x hx => ex h.2 (tx_expr r false false h.2 o x hx)) hs
  | .not v, _, _, h, _, _, hs => by
    rw [Expr_Tidy_not] at h
    exact tx_e_not (fun o x hx => ex h (tx_expr v false false h o x hx)) (fun _ o x hx => ex h (tx_expr v false true h o x hx)) hs
  | .isNull v, _, _, h, _, _, hs => by
    rw [Expr_Tidy_isNull] at h
    exact tx_e_isNull (fun o x hx => ex h (tx_expr v false false h o x hx)) hs
  | .between v l u, _, _, h, _, _, hs => by
    rw [Expr_Tidy_between] at h
    exact tx_e_between (fun o x hx => ex h.1 (tx_expr v false false h.1 o x hx))
      (fun o x hx => ex h.2.1 (tx_expr l false false h.2.1 o x hx)) (fun o x hx => ex h.2.2 (tx_expr u false false h.2.2 o x hx)) hs
  | .array vs, _, _, h, _, _, hs => by
    rw [Expr_Tidy_array] at h
    exact tx_e_array (fun o xs hx => items_false h ▸ tx_exprs vs false h o xs hx) hs
  | .inQuery v q, _, _, h, _, _, hs => by
    rw [Expr_Tidy_inQuery] at h
    exact tx_e_inQuery (fun o x hx => ex h.1 (tx_expr v false false h.1 o x hx)) (tx_queries q h.2) hs
  | .inList v es, _, _, h, _, _, hs => by
    rw [Expr_Tidy_inList] at h
    exact tx_e_inList (fun o x hx => ex h.1 (tx_expr v false false h.1 o x hx)) (fun o xs hx => items_false h.2 ▸ tx_exprs es false h.2 o xs hx) hs
  | .like v p e, _, _, h, _, _, hs => by
    rw [Expr_Tidy_like] at h
    exact tx_e_like (fun o x hx => ex h.1 (tx_expr v false false h.1 o x hx))
      (fun o x hx => ex h.2.1 (tx_expr p false false h.2.1 o x hx)) (tx_opt e h.2.2) hs
  | .typeCtor v t, _, _, h, _, _, hs => by
    rw [Expr_Tidy_typeCtor] at h
    rw [Expr_sqlN_typeCtor] at hs
    cases hs
    rw [Expr_cst_typeCtor]
    exact tx_e_typeCtor h.1 h.2
  | .row vs, _, _, h, _, _, hs => by
    rw [Expr_Tidy_row] at h
    exact tx_e_row (fun o xs hx => items_false h ▸ tx_exprs vs false h o xs hx) hs
  | .interval _ _ _, _, _, h, _, _, _ => h.elim
  | .cast tr e t, _, _, h, _, _, hs => by
    rw [Expr_Tidy_cast] at h
    exact tx_e_cast (fun o x hx => ex h (tx_expr e false false h o x hx)) hs
  | .subscript v i, _, _, h, _, _, hs => by
    rw [Expr_Tidy_subscript] at h
    exact tx_e_subscript (fun o x hx => ex h.1 (tx_expr v false false h.1 o x hx)) (fun o x hx => ex h.2 (tx_expr i false false h.2 o x hx)) hs
  | .case v bs e, _, _, h, _, _, hs => by
    rw [Expr_Tidy_case] at h
    exact tx_e_case (tx_opt v h.1) h.2.1 (tx_whens bs h.2.2.1) (tx_opt e h.2.2.2) hs
  | .func f as, _, _, h, _, _, hs => by
    rw [Expr_Tidy_func] at h
    exact tx_e_func (fun o xs hx => items_false h ▸ tx_exprs as false h o xs hx) hs
  | .agg f as ob fl w ign, _, _, h, _, _, hs => by
    rw [Expr_Tidy_agg] at h
    exact tx_e_agg (tx_exprs as _ h.1) h.1 h.2.1 h.2.2.1 (tx_ords ob h.2.2.2.1) (tx_opt fl h.2.2.2.2.1) (tx_wopt w h.2.2.2.2.2) hs
  | .listagg v sep ov ob, _, _, h, _, _, hs => by
    rw [Expr_Tidy_listagg] at h
    exact tx_e_listagg (fun o x hx => ex h.1 (tx_expr v false false h.1 o x hx)) h.2.1 h.2.2.1 (tx_ords ob h.2.2.2) hs
  | .curTime f p, _, _, h, _, _, hs => by
    rw [Expr_Tidy_curTime] at h
    rw [Expr_sqlN_curTime] at hs
    cases hs
    rw [Expr_cst_curTime]
    exact tx_cur f h
  | .session f, _, _, _, _, _, hs => by
    rw [Expr_sqlN_session] at hs
    cases hs
    rw [Expr_cst_session]
    exact tx_sess f
  | .normalize _ _, _, _, h, _, _, _ => h.elim
  | .query _, _, _, h, _, _, _ => h.elim
theorem tx_exprs : ∀ (es : List Expr) (it : Bool), Expr.Tidys it es → ∀ o xs, Expr.sqls o es = .ok xs →
    TxL xs (CItem.yields (Expr.items es))
  | [], _, _, _, _, h => by
    rw [Expr_sqls_nil] at h
    cases h
    exact .nil
  | e :: es, it, ht, o, _, h => by
    rw [Expr_Tidys_cons] at ht
    rw [Expr_sqls_cons] at h
    obtain ⟨a, ha, h⟩ := bind_ok h
    obtain ⟨r, hr, h⟩ := bind_ok h
    cases h
    rw [Expr_items_cons, CItem_yields_cons, itemCst_yield]
    exact .cons (tx_expr e it false ht.1 o a ha) (tx_exprs es it ht.2 o r hr)
theorem tx_opt : ∀ (e : Option Expr), Expr.TidyOpt e → TxO e
  | none, _, _, _, h => by
    rw [Expr_sqlOpt_none] at h
    cases h
    exact .none
  | some e, ht, o, _, h => by
    rw [Expr_TidyOpt_some] at ht
    rw [Expr_sqlOpt_some] at h
    obtain ⟨a, ha, h⟩ := bind_ok h
    cases h
    rw [Expr_cstOpt_some, CE_yieldOpt_some]
    exact .some (ex ht (tx_expr e false false ht o a ha))
theorem tx_whens : ∀ (bs : List (Expr × Expr)), Expr.TidyWhens bs → TxWhens bs
  | [], _, _, _, h => by
    rw [Expr_whens_nil] at h
    cases h
    exact .nil
  | (c, v) :: bs, ht, o, _, h => by
    rw [Expr_TidyWhens_cons] at ht
    rw [Expr_whens_cons] at h
    obtain ⟨a, ha, h⟩ := bind_ok h
    obtain ⟨b, hb, h⟩ := bind_ok h
    obtain ⟨r, hr, h⟩ := bind_ok h
    cases h
    rw [Expr_cstWhens_cons, CWhen_yields_cons]
    refine .cons ?_ (tx_whens bs ht.2.2 o r hr)
    have h1 := (ex ht.1 (tx_expr c false false ht.1 o a ha)).infix (Px.lit (c% " THEN ") [kwT (c% "THEN")] (by decide +kernel)) rfl
      (ex ht.2.1 (tx_expr v false false ht.2.1 o b hb))
    have h2 := Tx.pre (Px.lit (c% "WHEN ") [kwT (c% "WHEN")] (by decide +kernel)) rfl h1
    simpa using h2
theorem tx_ords : ∀ (es : List Ord), Ord.Tidys es → TxOs es
  | [], _, _, _, h => by
    rw [Ord_sqls_nil] at h
    cases h
    exact .nil
  | .mk v d nf :: es, ht, o, _, h => by
    rw [Ord_Tidys_cons, Ord_Tidy_mk] at ht
    rw [Ord_sqls_cons] at h
    obtain ⟨a, ha, h⟩ := bind_ok h
    obtain ⟨r, hr, h⟩ := bind_ok h
    cases h
    obtain ⟨ts, h1, h2⟩ := tx_ord (fun o x hx => ex ht.1 (tx_expr v false false ht.1 o x hx)) ha
    rw [Ord_cst_mk, CSort_yields_cons, CSort_yields_nil] at h1
    cases h1
    rw [Ord_csts_cons, Ord_cst_mk, CSort_yields_cons]
    exact .cons h2 (tx_ords es ht.2 o r hr)
theorem tx_bound : ∀ (b : Bound), b.Tidy → TxB b
  | .bounded t e, ht, _, _, h => by
    rw [Bound_Tidy_bounded] at ht
    exact tx_bounded (fun o x hx => ex ht (tx_expr e false false ht o x hx)) h
  | .unbounded t, _, _, _, h => tx_unbounded h
  | .current, _, _, _, h => tx_current h
theorem tx_wins : ∀ (w : Win), w.Tidy → TxW w
  | .mk p ob ps f st en, ht, _, _, h => by
    rw [Win_Tidy_mk] at ht
    exact tx_win ht.1 (tx_ords ob ht.2.1) (fun o xs hx => items_false ht.2.2.1 ▸ tx_exprs ps false ht.2.2.1 o xs hx) (tx_bound st ht.2.2.2.1)
      (tx_bound en ht.2.2.2.2) h
theorem tx_wopt : ∀ (w : Option Win), Win.TidyOpt w → TxWO w
  | none, _, _, _, h => by
    rw [Win_sqlOpt_none] at h
    cases h
    exact .none
  | some w, ht, o, _, h => by
    rw [Win_TidyOpt_some] at ht
    rw [Win_sqlOpt_some] at h
    obtain ⟨a, ha, h⟩ := bind_ok h
    cases h
    rw [Win_cstOpt_some, CWin_yieldOpt_some]
    exact .some (tx_wins w ht o a ha)
theorem tx_wnamed : ∀ (ws : List (Str × Win)), Win.TidyNamed ws → TxWs ws
  | [], _, _, _, h => by
    rw [Win_namedSqls_nil] at h
    cases h
    exact .nil
  | (n, w) :: ws, ht, o, _, h => by
    rw [Win_TidyNamed_cons] at ht
    rw [Win_namedSqls_cons] at h
    obtain ⟨a, ha, h⟩ := bind_ok h
    obtain ⟨r, hr, h⟩ := bind_ok h
    cases h
    rw [Win_cstNamed_cons, CWinDef_yields_cons]
    refine .cons ?_ (tx_wnamed ws ht.2.2 o r hr)
    exact (Tx.word ht.1).infix (Px.lit (c% " AS ") [kwT (c% "AS")] (by decide +kernel)) rfl (tx_wins w ht.2.1 o a ha)
theorem tx_grp : ∀ (g : Grp), g.Tidy → TxG g
  | .set vs, ht, o, _, h => by
    rw [Grp_Tidy_set] at ht
    rw [Grp_sql_set] at h
    obtain ⟨xs, hxs, h⟩ := bind_ok h
    rw [Grp_cst_set, CGrp_yield_single]
    exact set_tx (items_false ht ▸ tx_exprs vs false ht o xs hxs) h
  | .sets gs, ht, o, _, h => by
    rw [Grp_Tidy_sets] at ht
    rw [Grp_sql_sets] at h
    obtain ⟨xs, hxs, h⟩ := bind_ok h
    obtain ⟨j, hj, h⟩ := bind_ok h
    cases h
    rw [Grp_cst_sets, CGrp_yield_sets]
    exact Tx.call (Px.lit (c% "GROUPING SETS (") ([kwT (c% "GROUPING"), kwT (c% "SETS")] ++ [symT (c% "(")]) (by decide +kernel)) rfl
      (px_commas (tx_sets gs ht o xs hxs) hj)
  | .cube vs, ht, o, _, h => by
    rw [Grp_Tidy_cube] at ht
    rw [Grp_sql_cube] at h
    obtain ⟨xs, hxs, h⟩ := bind_ok h
    obtain ⟨j, hj, h⟩ := bind_ok h
    cases h
    rw [Grp_cst_cube, CGrp_yield_cube]
    exact Tx.call (Px.lit (c% "CUBE (") ([kwT (c% "CUBE")] ++ [symT (c% "(")]) (by decide +kernel)) rfl
      (px_commas (items_false ht ▸ tx_exprs vs false ht o xs hxs) hj)
  | .rollup vs, ht, o, _, h => by
    rw [Grp_Tidy_rollup] at ht
    rw [Grp_sql_rollup] at h
    obtain ⟨xs, hxs, h⟩ := bind_ok h
    obtain ⟨j, hj, h⟩ := bind_ok h
    cases h
    rw [Grp_cst_rollup, CGrp_yield_rollup]
    exact Tx.call (Px.lit (c% "ROLLUP (") ([kwT (c% "ROLLUP")] ++ [symT (c% "(")]) (by decide +kernel)) rfl
      (px_commas (items_false ht ▸ tx_exprs vs false ht o xs hxs) hj)
theorem tx_sets : ∀ (gs : List (List Expr)), Expr.TidyLists gs → TxSets gs
  | [], _, _, _, h => by
    rw [Expr_setSqls_nil] at h
    cases h
    exact .nil
  | vs :: gs, ht, o, _, h => by
    rw [Expr_TidyLists_cons] at ht
    rw [Expr_setSqls_cons] at h
    obtain ⟨xs, hxs, h⟩ := bind_ok h
    obtain ⟨j, hj, h⟩ := bind_ok h
    obtain ⟨r, hr, h⟩ := bind_ok h
    cases h
    rw [Expr_cstLists_cons, CSet_yields_cons]
    exact .cons (set_tx (items_false ht.1 ▸ tx_exprs vs false ht.1 o xs hxs) hj) (tx_sets gs ht.2 o r hr)
theorem tx_grps : ∀ (gs : List Grp), Grp.Tidys gs → TxGs gs
  | [], _, _, _, h => by
    rw [Grp_sqls_nil] at h
    cases h
    exact .nil
  | g :: gs, ht, o, _, h => by
    rw [Grp_Tidys_cons] at ht
    rw [Grp_sqls_cons] at h
    obtain ⟨a, ha, h⟩ := bind_ok h
    obtain ⟨r, hr, h⟩ := bind_ok h
    cases h
    rw [Grp_csts_cons, CGrp_yields_cons]
    exact .cons (tx_grp g ht.1 o a ha) (tx_grps gs ht.2 o r hr)
theorem tx_gopt : ∀ (gb : Option GroupBy), GroupBy.TidyOpt gb → ∀ gs d, gb = some (.mk gs d) → gs ≠ [] ∧ TxGs gs
  | none, _, _, _, h => nomatch h
  | some (.mk gs d), ht, _, _, h => by
    rw [GroupBy_TidyOpt_some, GroupBy_Tidy_mk] at ht
    cases h
    exact ⟨ht.1, tx_grps gs ht.2⟩
theorem tx_queries : ∀ (q : Query), q.Tidy → TxQ q
  | .mk b off lim ob w, ht, _, _, h => by
    rw [Query_Tidy_mk] at ht
    exact tx_query (fun o we ce tw tc x => tx_body b ht.1 o we ce tw tc x) ht.2.1 ht.2.2.1 (tx_ords ob ht.2.2.2.1)
      (tx_withs w ht.2.2.2.2) h
theorem tx_body : ∀ (b : QBody), b.Tidy → ∀ o we ce tw tc x, (∀ y, we = .ok y → EntL y tw) → (∀ y, ce = .ok y → EntL y tc) → b.sql o we ce = .ok x →
      if b.isSet then Tx x b.cst.yield else Tx x (tw ++ (b.cst.yield ++ tc))
  | .select items fr wh gb hv d wins, ht, o, we, ce, tw, tc, x, h1, h2, h => by
    rw [QBody_Tidy_select] at ht
    exact tx_select ht.1 (tx_exprs items true ht.2.1) (tx_ropt fr ht.2.2.1) (tx_opt wh ht.2.2.2.1) (tx_gopt gb ht.2.2.2.2.1)
      (tx_opt hv ht.2.2.2.2.2.1) (tx_wnamed wins ht.2.2.2.2.2.2) h1 h2 h
  | .set k l r d, ht, _, _, _, _, _, _, _, _, h => by
    rw [QBody_Tidy_set] at ht
    exact tx_set (tx_queries l ht.1) (tx_queries r ht.2.1) ht.2.2.1 ht.2.2.2 h
  | .table t, ht, _, _, _, _, _, _, h1, h2, h => by
    rw [QBody_Tidy_table] at ht
    exact tx_tableQ ht h1 h2 h
  | .values es, ht, _, _, _, _, _, _, h1, h2, h => by
    rw [QBody_Tidy_values] at ht
    exact tx_values ht.1 (fun o xs hx => items_false ht.2 ▸ tx_exprs es false ht.2 o xs hx) h1 h2 h
theorem tx_withs : ∀ (w : List Named), Named.Tidys w → ∀ o xs, Named.namedSqls o w = .ok xs → TxL xs (CNamed.yields (Named.csts w))
  | [], _, _, _, h => by
    rw [Named_namedSqls_nil] at h
    cases h
    exact .nil
  | .mk r a cols :: ns, ht, o, _, h => by
    rw [Named_Tidys_cons, Named_TidyWith_mk] at ht
    rw [Named_namedSqls_cons] at h
    obtain ⟨x, hx, h⟩ := bind_ok h
    obtain ⟨y, hy, h⟩ := bind_ok h
    cases h
    obtain ⟨ts, h1, h2⟩ := tx_with (tx_rel r ht.1.1) ht.1.2.2.1 ht.1.2.1 ht.1.2.2.2 hx
    rw [Named_cstWith_mk, CNamed_yields_cons, CNamed_yields_nil] at h1
    cases h1
    rw [Named_csts_cons, Named_cstWith_mk, CNamed_yields_cons]
    exact .cons h2 (tx_withs ns ht.2 o y hy)
theorem tx_ropt : ∀ (fr : Option Rel), Rel.TidyOpt fr → ∀ r, fr = some r → TxR r
  | none, _, _, h => nomatch h
  | some r, ht, _, h => by
    rw [Rel_TidyOpt_some] at ht
    cases h
    exact tx_rel r ht
theorem tx_rel : ∀ (r : Rel), r.Tidy → TxR r
  | .table t, ht, _, _, h => by
    rw [Rel_Tidy_table] at ht
    rw [Rel_sql_table] at h
    cases h
    rw [Rel_cst_table, CR_yield_table]
    exact tx_table ht
  | .query q, ht, o, x, h => by
    rw [Rel_Tidy_query] at ht
    rw [Rel_sql_query] at h
    rw [Rel_qcst_query]
    exact tx_queries q ht o x h
  | .aliased (.mk r a cols), ht, o, x, h => by
    rw [Rel_Tidy_aliased, Named_Tidy_mk] at ht
    rw [Rel_sql_aliased] at h
    rw [Rel_cst_aliased]
    exact tx_named (tx_rel r ht.1) ht.2.1 ht.2.2 h
  | .join l r t nat cr, ht, _, _, h => by
    rw [Rel_Tidy_join] at ht
    exact tx_join_rel (tx_rel l ht.1) (tx_rel r ht.2.1) ht.2.2.1 (tx_crit cr ht.2.2.2) h
  | .unnest as ord, ht, _, _, h => by
    rw [Rel_Tidy_unnest] at ht
    obtain ⟨ht, rfl⟩ := ht
    exact tx_unnest (fun o xs hx => items_false ht ▸ tx_exprs as false ht o xs hx) h
  | .lateral q, ht, _, _, h => by
    rw [Rel_Tidy_lateral] at ht
    exact tx_lateral (tx_queries q ht) h
  | .sample r t p, ht, _, _, h => by
    rw [Rel_Tidy_sample] at ht
    exact tx_sample (tx_rel r ht.1) (fun o x hx => ex ht.2 (tx_expr p false false ht.2 o x hx)) h
theorem tx_crit : ∀ (c : Option Crit), Crit.TidyOpt c → TxC c
  | none, _, _, _, h => by
    rw [Crit_entriesOpt_none] at h
    cases h
    exact .nil
  | some (.using cols), ht, _, _, h => by
    rw [Crit_TidyOpt_some, Crit_Tidy_using] at ht
    rw [Crit_entriesOpt_some] at h
    exact ent_using ht.1 ht.2 h
  | some (.on e), ht, _, _, h => by
    rw [Crit_TidyOpt_some, Crit_Tidy_on] at ht
    rw [Crit_entriesOpt_some] at h
    exact ent_on (fun o x hx => ex ht (tx_expr e false false ht o x hx)) h
end

/-- The tokens of a printed expression. -/
theorem toks_expr {e : Expr} {o : Opts} {s : Str} (ht : e.Tidy false) (h : e.sql o = .ok s) : toks s = (e.cst false).yield :=
  (ex ht (tx_expr e false false ht o s h)).toks
/-- The tokens of a printed query. -/
theorem toks_query {q : Query} {o : Opts} {s : Str} (ht : q.Tidy) (h : q.sql o = .ok s) : toks s = q.cst.yield :=
  (tx_queries q ht o s h).toks

end Treeno
