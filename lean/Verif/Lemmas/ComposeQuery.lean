import Verif.Spec.ComposeQuery
import Verif.Lemmas.ComposeWindow
/-!
# Reading queries that are put together
-/
set_option autoImplicit false
set_option linter.unusedSimpArgs false
set_option linter.unusedVariables false
namespace Treeno
open Spec

/-! ## No expression is a star -/

def NotStar (x : Except Err Expr) : Prop := ∀ e, x = .ok e → e.isStar = false

theorem NotStar.bind {α : Type} {x : Except Err α} {f : α → Except Err Expr} (h : ∀ a, NotStar (f a)) : NotStar (x >>= f) := by
  intro e he
  obtain ⟨a, _, ha⟩ := bind_ok he
  exact h a e ha
theorem NotStar.err {er : Err} : NotStar (.error er) := fun _ h => nomatch h
theorem NotStar.build {e : Expr} (he : e.isStar = false) : NotStar (Expr.build e) := by
  intro e' h
  obtain ⟨t, ht, h⟩ := bind_ok h
  cases h
  exact he

macro "star_free" : tactic => `(tactic| repeat' first
  | exact NotStar.build rfl | exact NotStar.err | (refine NotStar.bind fun _ => ?_) | (intro e h; cases h; rfl)
  | (unfold negIf; split) | unfold zoneOf | unfold numLit | unfold callOf | unfold specialOf | unfold listaggCall | unfold normalizeCall | unfold curTimeCall | unfold lambdaOf | unfold derefOf
  | unfold dateTimeOf | unfold sessionOf | unfold nothing | split)

theorem star_CE : ∀ c : CE, NotStar c.conv
  | .or_ l r => by rw [CE_conv_or_]; star_free
  | .and_ l r => by rw [CE_conv_and_]; star_free
  | .not_ v => by rw [CE_conv_not_]; star_free
  | .cmp op l r => by rw [CE_conv_cmp]; star_free
  | .between neg v l u => by rw [CE_conv_between]; star_free
  | .inList neg v es => by rw [CE_conv_inList]; star_free
  | .inSub neg v q => by rw [CE_conv_inSub]; star_free
  | .like neg v p esc => by rw [CE_conv_like]; star_free
  | .isNull neg v => by rw [CE_conv_isNull]; star_free
  | .distinct neg l r => by rw [CE_conv_distinct]; star_free
  | .quantified u1_ u2_ l u3_ => by rw [CE_conv_quantified]; star_free
  | .concat l r => by rw [CE_conv_concat]; star_free
  | .arith op l r => by rw [CE_conv_arith]; star_free
  | .sign op v => by rw [CE_conv_sign]; star_free
  | .atZone v z => by rw [CE_conv_atZone]; star_free
  | .null  => by rw [CE_conv_null]; star_free
  | .interval sg s f t => by rw [CE_conv_interval]; star_free
  | .typeCtor n s => by rw [CE_conv_typeCtor]; star_free
  | .doublePrecision s => by rw [CE_conv_doublePrecision]; star_free
  | .num m t => by rw [CE_conv_num]; star_free
  | .bool t => by rw [CE_conv_bool]; star_free
  | .str s => by rw [CE_conv_str]; star_free
  | .binary u1_ => by rw [CE_conv_binary]; star_free
  | .param  => by rw [CE_conv_param]; star_free
  | .row es => by rw [CE_conv_row]; star_free
  | .rowKw es => by rw [CE_conv_rowKw]; star_free
  | .listagg u1_ e sep ov ob => by rw [CE_conv_listagg]; star_free
  | .callStar name label fl w => by rw [CE_conv_callStar]; star_free
  | .call name u1_ args ob fl ign w => by rw [CE_conv_call]; star_free
  | .lam u1_ ids b => by rw [CE_conv_lam]; star_free
  | .case v ws e => by rw [CE_conv_case]; star_free
  | .cast tr e ty u1_ => by rw [CE_conv_cast]; star_free
  | .array es => by rw [CE_conv_array]; star_free
  | .subscript v i => by rw [CE_conv_subscript]; star_free
  | .col t => by rw [CE_conv_col]; star_free
  | .deref v n => by rw [CE_conv_deref]; star_free
  | .dateTime t p => by rw [CE_conv_dateTime]; star_free
  | .session t => by rw [CE_conv_session]; star_free
  | .normalize v f => by rw [CE_conv_normalize]; star_free
  | .exists_ q => by rw [CE_conv_exists_]; star_free
  | .position l r => by rw [CE_conv_position]; star_free
  | .substring v f n => by rw [CE_conv_substring]; star_free
  | .extract t v => by rw [CE_conv_extract]; star_free
  | .trimFrom u1_ c v => by rw [CE_conv_trimFrom]; star_free
  | .trim v c => by rw [CE_conv_trim]; star_free
  | .grouping ns => by rw [CE_conv_grouping]; star_free
  | .sub q => by
    intro e h
    rw [CE_conv_sub] at h
    obtain ⟨x, hx, h⟩ := bind_ok h
    obtain ⟨y, hy, h⟩ := bind_ok h
    cases h
    rfl
  | .paren e => star_CE e

/-! ## A query does not start with a parenthesis -/

theorem body_start : ∀ (t : CQT) (q : Query), t.conv = .ok (some q) → ∀ rest, nextSym (c% "(") (t.yield ++ rest) = false
  | .set op quant l r, q, h, rest => by
    rw [CQT_conv_set] at h
    obtain ⟨a, ha, h⟩ := bind_ok h
    obtain ⟨_, _, h⟩ := bind_ok h
    obtain ⟨_, _, h⟩ := bind_ok h
    obtain ⟨_, _, h⟩ := bind_ok h
    obtain ⟨a', ha', h⟩ := bind_ok h
    cases a with
    | none => cases ha'
    | some a =>
      rw [CQT_yield_set, List.append_assoc]
      exact body_start l a ha _
  | .spec .., _, _, _ => rfl
  | .table _, _, _, _ => rfl
  | .values _, _, _, _ => rfl
  | .sub q', q, h, _ => by
    rw [CQT_conv_sub] at h
    obtain ⟨_, _, h⟩ := bind_ok h
    cases h

theorem some_order {o : List Ord} {x : Option Query} {q : Query} (h : orderQuery o x = .ok (some q)) : ∃ p, x = some p := by
  unfold orderQuery at h
  split at h
  · cases h; exact ⟨_, rfl⟩
  · obtain ⟨p, hp, _⟩ := set_attr h; exact ⟨p, hp⟩
theorem some_offset {o : Option (Tok × Option Tok)} {x : Option Query} {q : Query} (h : offsetQuery o x = .ok (some q)) : ∃ p, x = some p := by
  unfold offsetQuery at h
  split at h
  · cases h; exact ⟨_, rfl⟩
  · obtain ⟨_, _, h⟩ := bind_ok h
    obtain ⟨p, hp, _⟩ := set_attr h; exact ⟨p, hp⟩
theorem some_limit {o : CLimit} {x : Option Query} {q : Query} (h : limitQuery o x = .ok (some q)) : ∃ p, x = some p := by
  unfold limitQuery at h
  split at h
  · obtain ⟨_, _, h⟩ := bind_ok h
    obtain ⟨p, hp, _⟩ := set_attr h; exact ⟨p, hp⟩
  · cases h; exact ⟨_, rfl⟩
theorem some_with {o : List Named} {x : Option Query} {q : Query} (h : withQuery o x = .ok (some q)) : ∃ p, x = some p := by
  unfold withQuery at h
  split at h
  · cases h; exact ⟨_, rfl⟩
  · obtain ⟨p, hp, _⟩ := set_attr h; exact ⟨p, hp⟩

theorem nextSym_canon (k : Str) {a b : List Tok} (h : a.map canon = b.map canon) : nextSym k a = nextSym k b := by
  match a, b, h with
  | [], [], _ => rfl
  | t :: a, u :: b, h =>
    simp only [List.map_cons, List.cons.injEq] at h
    rw [nextSym, nextSym, ← canon_isSym k t, h.1, canon_isSym]

theorem query_start {ts : List Tok} {c : CQ} {q : Query} (hc : P .query ts = some (c, [])) (h : c.conv = .ok (some q)) :
    nextSym (c% "(") ts = false := by
  obtain ⟨_, used, b, e⟩ := query_s P_sound hc
  rw [List.append_nil] at b
  subst b
  rw [nextSym_canon _ e]
  obtain ⟨rc, w, ⟨t, ob, off, lim⟩⟩ := c
  rw [CQ_conv_mk] at h
  obtain ⟨x, hx, h⟩ := bind_ok h
  have hx' : ∃ p, x = some p := by
    split at h
    · cases h
    · obtain ⟨_, _, h⟩ := bind_ok h
      exact some_with h
  obtain ⟨p, rfl⟩ := hx'
  rw [CQN_conv_mk] at hx
  obtain ⟨y, hy, hx⟩ := bind_ok hx
  obtain ⟨_, _, hx⟩ := bind_ok hx
  obtain ⟨_, h1, hx⟩ := bind_ok hx
  obtain ⟨_, h2, hx⟩ := bind_ok hx
  obtain ⟨_, rfl⟩ := some_limit hx
  obtain ⟨_, rfl⟩ := some_offset h2
  obtain ⟨r, rfl⟩ := some_order h1
  rw [CQ_yield_mk, CQN_yield_mk]
  cases w with
  | nil => exact body_start t r hy _
  | cons n w => obtain ⟨n, cs, q⟩ := n; rfl

theorem read_start {s : Str} {q : Query} {c : CQ} (hc : P .query (toks s) = some (c, [])) (h : queryFromSql s = .ok (some q)) :
    nextSym (c% "(") (toks s) = false := by
  unfold queryFromSql at h
  rw [hc] at h
  exact query_start hc h

def uLimit : List Tok := [kwT (c% "LIMIT")]
def uOffset : List Tok := kwT (c% "OFFSET") :: uLimit
def uOrder : List Tok := kwT (c% "ORDER") :: uOffset
def tUnion : List Tok := [kwT (c% "UNION"), kwT (c% "EXCEPT")]
def tSet : List Tok := kwT (c% "INTERSECT") :: tUnion
/-- What may follow what INTERSECT joins. -/
def uUnion : List Tok := uOrder ++ tUnion
def tLimit : List Tok := kwT (c% "LIMIT") :: tSet
def tOffset : List Tok := kwT (c% "OFFSET") :: tLimit
def tOrder : List Tok := kwT (c% "ORDER") :: tOffset
def tWindow : List Tok := kwT (c% "WINDOW") :: tOrder
def tHaving : List Tok := kwT (c% "HAVING") :: tWindow
def tGroup : List Tok := kwT (c% "GROUP") :: tHaving
def tWhere : List Tok := kwT (c% "WHERE") :: tGroup
def tFrom : List Tok := kwT (c% "FROM") :: tWhere

/-! ## WHERE and HAVING -/

theorem part_expr {k ks : Str} {after : List Tok} (hl : LexAs ks [kwT k]) (hk : ∀ ts, kw k (kwT k :: ts) = some ts)
    (h1 : after.all (fun t => t.frank.isNone) = true) (h2 : after.all (fun t => !t.isSym (c% "->")) = true)
    (h3 : after.all (fun t => !t.isKw k) = true) {o : Option Str} {e : Option Expr} (h : OptText o e) :
    ∃ c, PartR (optPar ks o) (optExpr P k) (kwT k :: after) after c ∧ dropNone (CE.isNoneOpt c) (CE.convOpt c) = .ok e := by
  cases h with
  | none =>
    refine ⟨none, ⟨[], LexAs.nil, fun Y hY => ⟨?_, hY.tail⟩⟩, rfl⟩
    show optExpr P k Y = _
    rw [optExpr, hY.kwNone k h3]
  | some h =>
    obtain ⟨c, hc, hv, hcl⟩ := text_is h
    refine ⟨some c, ⟨_, hl.app (lexAs_par hcl), fun Y hY => ⟨?_, Hd.first⟩⟩, ?_⟩
    · show optExpr P k (kwT k :: (pt _ [] ++ Y)) = _
      rw [pt_app, List.nil_append, optExpr, hk]
      exact bind_s (operand_pt (by omega) hc (hY.stop h1 0) (hY.nextSym _ h2)) rfl
    · show dropNone _ (c.conv >>= _) = _
      rw [hv]; rfl

/-! ## The items -/

theorem text_primary {s : Str} {e : Expr} (h : Text s e) :
    ∃ c, Opd (toks s) c ∧ c.conv = .ok e ∧ clean false (toks s) = true ∧ c.isPrimary = true := by
  cases h with
  | expr h hq =>
    unfold expressionFromSql at h
    split at h
    · rename_i c hc
      refine ⟨.paren c, Is.opd ⟨hc, ?_⟩, h, lv_clean hc, rfl⟩
      cases c <;> try rfl
      rename_i q
      exfalso
      rw [CE_conv_sub] at h
      obtain ⟨a, _, h⟩ := bind_ok h
      obtain ⟨b, _, h⟩ := bind_ok h
      cases h
      exact hq _ rfl
    · cases h
  | query hw h =>
    obtain ⟨c, hc⟩ := hw
    refine ⟨.sub c, query_opd hc, ?_, query_clean hc, rfl⟩
    unfold queryFromSql at h
    rw [hc] at h
    rw [CE_conv_sub, show c.conv = _ from h]; rfl

/-- An operand in front of `.*` -/
theorem operand_star {ts : List Tok} {c : CE} (h : Opd ts c) (T : List Tok) :
    P (.lv 0) (pt ts (symT (c% ".") :: symT (c% "*") :: T)) = some (c, symT (c% ".") :: symT (c% "*") :: T) := by
  generalize hR : symT (c% ".") :: symT (c% "*") :: T = R
  have h8 : P (.lv 8) (pt ts R) = some (c, R) := by
    rw [pt, P_lv8]
    show (pParen P (ts ++ cl R)).bind _ = _
    rw [h.paren R (by rw [← hR]; rfl)]
    show P (.loop 8 c) R = _
    rw [P_loop, pLoop, pPostfix]
    exact ite_f (by rw [← hR]; rfl) (ite_f (by rw [← hR]; rfl) rfl)
  have h7 : P (.lv 7) (pt ts R) = some (c, R) := by
    rw [P_lv, pLevel, if_neg (by rw [show signNext (pt ts R) = false from rfl]; simp), pOperand]
    refine bind_s h8 ?_
    rw [P_loop, pLoop, pAt]
    exact ite_f (by rw [← hR]; rfl) rfl
  have st : ∀ {p}, (isBin p ∨ p = 3) → P (.loop p c) R = some (c, R) := by
    intro p hp'
    rw [← hR]
    rcases hp' with hb | rfl
    · rw [loop_bin p hb, pBinLoop]
      rcases hb with rfl | rfl | rfl | rfl | rfl <;> rfl
    · rw [P_loop, pLoop, pPredicate]; rfl
  have down : ∀ {p}, (p = 3 ∨ isBin p) → P (.lv (p + 1)) (pt ts R) = some (c, R) → P (.lv p) (pt ts R) = some (c, R) := by
    intro p hb h
    rw [lv_operand p hb, pOperand]
    exact bind_s h (st hb.symm)
  have h6 := down (p := 6) (.inr (by unfold isBin; omega)) h7
  have h5 := down (p := 5) (.inr (by unfold isBin; omega)) h6
  have h4 := down (p := 4) (.inr (by unfold isBin; omega)) h5
  have h3 := down (p := 3) (.inl rfl) h4
  have h2 : P (.lv 2) (pt ts R) = some (c, R) := by
    rw [P_lv, pLevel, if_neg (by rw [show nextKw (c% "NOT") (pt ts R) = false from rfl]; simp), h3]
  have h1 := down (p := 1) (.inr (by unfold isBin; omega)) h2
  exact down (p := 0) (.inr (by unfold isBin; omega)) h1

theorem star_check {s : Str} {x : Expr} (h : StarText s x) : ∃ t, x.check = .ok t := by
  cases h with
  | table h => exact ⟨_, rfl⟩
  | row h hf =>
    obtain ⟨c, _, hv, _⟩ := text_is h
    obtain ⟨t, ht⟩ := made_CE c _ hv
    exact ⟨.unknown, by rw [Expr_check_starOf, ht, hf]; rfl⟩

theorem star_base {s : Str} {x : Expr} (h : StarText s x) :
    ∃ c, Opd (toks s) c ∧ clean false (toks s) = true ∧ c.isPrimary = true ∧ (c.conv >>= starOfBase) = .ok x := by
  have hx := star_check h
  cases h with
  | table h =>
    obtain ⟨c, h1, hv, h2, h3⟩ := text_primary h
    exact ⟨c, h1, h2, h3, ebind hv rfl⟩
  | @row _ e h hf =>
    obtain ⟨c, h1, hv, h2, h3⟩ := text_primary h
    refine ⟨c, h1, h2, h3, ebind hv ?_⟩
    obtain ⟨t, ht⟩ := hx
    have : starOfBase e = Expr.build (.starOf e .unknown) := by
      cases e <;> first | rfl | cases hf
    rw [this, Expr.build, ht]; rfl

theorem lexAs_star : LexAs (c% ".* ") [symT (c% "."), symT (c% "*")] := by
  intro y
  refine (toks_step (t := symT (c% ".")) (r := '*' :: ' ' :: y) rfl).trans ?_
  refine congrArg (symT (c% ".") :: ·) ((toks_step (t := symT (c% "*")) (r := ' ' :: y) rfl).trans ?_)
  exact congrArg (symT (c% "*") :: ·) (toks_ws ' ' _ rfl)

theorem item_read {i : ItemPart} {e : Expr} (h : ItemText i e) {after : List Tok}
    (h1 : after.all (fun t => t.frank.isNone) = true) (h2 : after.all (fun t => !t.isSym (c% "->")) = true)
    (h3 : after.all (fun t => !t.isSym (c% ".")) = true) (h4 : after.all (fun t => !t.isKw (c% "AS")) = true)
    (h5 : after.all (fun t => !t.isAlias) = true) :
    ∃ c t ts, LexAs i.text (t :: ts) ∧ t.isQuant = false ∧
      (∀ Y, Hd after Y → pItem P (t :: ts ++ Y) = some (c, Y)) ∧ c.conv = .ok e := by
  cases h with
  | all =>
    refine ⟨.all, symT (c% "*"), [], ?_, rfl, fun Y hY => rfl, rfl⟩
    intro y
    refine (toks_step (t := symT (c% "*")) (r := ' ' :: y) rfl).trans ?_
    exact congrArg (symT (c% "*") :: ·) (toks_ws ' ' _ rfl)
  | allOf h =>
    obtain ⟨c, hc, hcl, hp, hv⟩ := star_base h
    refine ⟨.allOf c [], symT (c% "("), _, (lexAs_par hcl).app (lexAs_star.app LexAs.nil), rfl, fun Y hY => ?_, ?_⟩
    · show pItem P ((pt _ [] ++ [symT (c% "."), symT (c% "*")]) ++ Y) = _
      rw [pt_app, pt_app, List.nil_append]
      rw [pItem, show sym (c% "*") (pt _ _) = none from rfl]
      refine bind_s (operand_star hc Y) (ite_t rfl (ite_t hp ?_))
      show (optAsColumns Y >>= _) = _
      refine bind_s (a := ([], Y)) ?_ rfl
      rw [optAsColumns, hY.kwNone _ h4]
    · rw [CItem_conv_allOf]
      obtain ⟨b, hb, hv⟩ := bind_ok hv
      exact ebind hb (ebind hv rfl)
  | @allAs s x ns h hne hns =>
    obtain ⟨c, hc, hcl, hp, hv⟩ := star_base h
    obtain ⟨us, u1, u2, u3⟩ := columns_read hne hns
    have hl : LexAs (starNames ns) (kwT (c% "AS") :: symT (c% "(") :: us) := by
      cases ns with
      | nil => exact absurd rfl hne
      | cons n ns => exact (lexAs_word (c := 'A') (t := kwT (c% "AS")) (w := c% "S") (fun _ => rfl) rfl).app u1
    refine ⟨.allOf c (ns.map nameTok), symT (c% "("), _, (lexAs_par hcl).app (lexAs_star.app hl), rfl, fun Y hY => ?_, ?_⟩
    · show pItem P ((pt _ [] ++ (symT (c% ".") :: symT (c% "*") :: kwT (c% "AS") :: symT (c% "(") :: us)) ++ Y) = _
      rw [pt_app, pt_app, List.nil_append]
      rw [pItem, show sym (c% "*") (pt _ _) = none from rfl]
      refine bind_s (operand_star hc _) (ite_t rfl (ite_t hp ?_))
      exact bind_s (u2 Y) rfl
    · rw [CItem_conv_allOf]
      obtain ⟨b, hb, hv⟩ := bind_ok hv
      refine ebind hb (ebind hv (ebind u3 ?_))
      rw [starAliases]
      refine ite_f (by cases ns with | nil => exact absurd rfl hne | cons _ _ => rfl) ?_
      obtain ⟨t, ht⟩ := star_check h
      rw [Expr.build, Expr_check_aliasedStar, ht]; rfl
  | plain h =>
    obtain ⟨c, hc, hv, hcl⟩ := text_is h
    refine ⟨.expr c false none, symT (c% "("), _, (lexAs_par hcl).app LexAs.nil, rfl, fun Y hY => ?_, ?_⟩
    · show pItem P ((pt _ [] ++ []) ++ Y) = _
      rw [List.append_nil, pt_app, List.nil_append]
      rw [pItem, show sym (c% "*") (pt _ Y) = none from rfl]
      refine bind_s (operand_pt (by omega) hc (hY.stop h1 0) (hY.nextSym _ h2)) ?_
      refine ite_f (hY.next2 _ _ h3) ?_
      refine bind_s (a := ((false, none), Y)) ?_ rfl
      rw [optAlias, hY.kwNone _ h4]
      dsimp only
      rw [hY.optTok _ h5]
    · rw [CItem_conv_expr, hv]; rfl
  | named h hn =>
    rename_i n v
    obtain ⟨c, hc, hv, hcl⟩ := text_is h
    refine ⟨.expr c false (some (nameTok n)), symT (c% "("), _, (lexAs_par hcl).app (lexAs_blank (lexAs_quoted hn)), rfl,
      fun Y hY => ?_, ?_⟩
    · show pItem P ((pt _ [] ++ [nameTok n]) ++ Y) = _
      rw [pt_app, pt_app, List.nil_append, List.singleton_append]
      rw [pItem, show sym (c% "*") (pt _ _) = none from rfl]
      refine bind_s (operand_pt (by omega) hc (Stop.free rfl) rfl) ?_
      refine ite_f (by cases Y <;> rfl) ?_
      exact bind_s (a := ((false, some (nameTok n)), Y)) rfl rfl
    · rw [CItem_conv_expr]
      have hi : identOpt (some (nameTok n)) = .ok (some n) := by
        show (identText (nameTok n) >>= _) = _
        rw [ident_quoted hn]; rfl
      refine ebind hv (ebind hi ?_)
      show Expr.build (.alias v n) = _
      obtain ⟨t, ht⟩ := made_CE c v hv
      rw [Expr.build, Expr_check_alias, ht]
      have := star_CE c v hv
      show ((if v.isStar then _ else _) >>= _) = _
      rw [this]; rfl

theorem items_read : ∀ {is : List ItemPart} {es : List Expr}, is ≠ [] → Each ItemText is es →
    ∃ cs t ts, LexAs (itemText is) (t :: ts) ∧ t.isQuant = false ∧
      (∀ Y, Hd tFrom Y → P .items (t :: ts ++ Y) = some (cs, Y)) ∧ CItem.convs cs = .ok es
  | [i], _, _, .cons h .nil => by
    obtain ⟨c, t, ts, h1, h0, h2, h3⟩ := item_read h (after := tFrom) (by decide +kernel) (by decide +kernel) (by decide +kernel)
      (by decide +kernel) (by decide +kernel)
    refine ⟨[c], t, ts, h1, h0, fun Y hY => ?_, ?_⟩
    · rw [P_items, pSep]
      refine bind_s (h2 Y hY) ?_
      rw [hY.symNone _ (by decide +kernel)]
    · rw [CItem_convs_cons, h3]; rfl
  | i :: j :: is, _, _, .cons h hs => by
    obtain ⟨c, t, ts, h1, h0, h2, h3⟩ := item_read h (after := [symT (c% ",")]) (by decide +kernel) (by decide +kernel) (by decide +kernel)
      (by decide +kernel) (by decide +kernel)
    obtain ⟨cs, u, us, k1, _, k2, k3⟩ := items_read (by simp) hs
    refine ⟨c :: cs, t, ts ++ symT (c% ",") :: u :: us, ?_, h0, fun Y hY => ?_, ?_⟩
    · have := h1.app (lexAs_comma.app k1)
      simpa [itemText] using this
    · rw [P_items, pSep]
      have e : t :: (ts ++ symT (c% ",") :: u :: us) ++ Y =
        t :: ts ++ (symT (c% ",") :: (u :: us ++ Y)) := by simp
      rw [e]
      refine bind_s (h2 _ Hd.first) ?_
      exact bind_s (k2 Y hY) rfl
    · rw [CItem_convs_cons, h3, k3]; rfl

/-! ## FROM -/

def tWord : List Tok := [kwT (c% "JOIN"), kwT (c% "INNER"), kwT (c% "LEFT"), kwT (c% "RIGHT"), kwT (c% "FULL")]
def tJoin : List Tok := kwT (c% "CROSS") :: kwT (c% "NATURAL") :: tWord
/-- What may follow all the joins. -/
def tEnd : List Tok := symT (c% ")") :: tWhere
def tRel : List Tok := kwT (c% "ON") :: kwT (c% "USING") :: (tJoin ++ tEnd)

/-- The joins in parentheses that a source may be. -/
def ParRel (s : Str) (r : Rel) : Prop :=
  ∃ c ts, LexAs s ts ∧ (∀ Y, P .rel (ts ++ cl Y) = some (c, cl Y)) ∧ (∀ Y, qStart (ts ++ cl Y) = false) ∧ c.conv = .ok (some r)

/-- A token after which what stands in parentheses before it could be a query. -/
def queryEnd (u : Tok) : Bool := u.isSym (c% ")") || u.isKwOf queryMore

/-- What may follow a relation with its name. -/
def tMark : List Tok := kwT (c% "TABLESAMPLE") :: tRel

theorem alias_none {x : CR} {Y : List Tok} (h : Hd tMark Y) {ts : List Tok} (hp : pRelPrimary P ts = some (x, Y)) :
    pAliased P ts = some (x, Y) := by
  rw [pAliased]
  refine bind_s hp ?_
  refine bind_s (a := ((false, none), Y)) ?_ rfl
  rw [optAlias, h.kwNone _ (by decide +kernel)]
  dsimp only
  rw [h.optTok _ (by decide +kernel)]

theorem alias_some {x : CR} {n : Str} {Y Z : List Tok} {cols : List Tok} {ts : List Tok}
    (hc : optColumns Z = some (cols, Y)) (hp : pRelPrimary P ts = some (x, nameTok n :: Z)) :
    pAliased P ts = some (.alias x false (nameTok n) cols, Y) := by
  rw [pAliased]
  refine bind_s hp ?_
  refine bind_s (a := ((false, some (nameTok n)), Z)) rfl ?_
  exact bind_s (a := (cols, Y)) hc rfl

theorem alias_conv {x : CR} {r : Rel} {n : Str} {ns : List Str} (hn : '"' ∉ n) (hi : identTexts (ns.map nameTok) = .ok ns)
    (hx : x.conv = .ok (some r)) :
    (CR.alias x false (nameTok n) (ns.map nameTok)).conv = .ok (some (.aliased (.mk r n ns))) := by
  rw [CR_conv_alias]
  refine ebind hx (ebind (ident_quoted hn) (ebind hi ?_))
  show (Rel.build (.aliased (.mk r n ns)) >>= _) = _
  rw [Rel.build, Rel_check_aliased, Named_check_mk, made_CR x r hx]
  rfl

theorem lexAs_dot {n t : Str} {ts : List Tok} (h : '"' ∉ n) (k : LexAs t ts) (hd : ∀ y, (t ++ y).head? = some '"' := by intro y; rfl) :
    LexAs (quoted n ++ (c% "." ++ t)) (nameTok n :: symT (c% ".") :: ts) := by
  intro y
  rw [quoted_eq, List.append_assoc, List.append_assoc]
  refine (toks_quoted n _ h (by unfold NotQuote; simp)).trans ?_
  refine congrArg (nameTok n :: ·) ?_
  have : toks (c% "." ++ (t ++ y)) = symT (c% ".") :: toks (t ++ y) := by
    obtain ⟨u, hu⟩ : ∃ u, t ++ y = '"' :: u := by
      have := hd y
      cases e : t ++ y with
      | nil => rw [e] at this; cases this
      | cons a u => rw [e] at this; cases this; exact ⟨u, rfl⟩
    rw [hu]
    exact toks_step rfl
  rw [this, k y]; rfl

theorem qname_one {m : Str} {Y : List Tok} (hY : nextSym (c% ".") Y = false) : pQName (nameTok m :: Y) = some ([nameTok m], Y) := by
  cases Y with
  | nil => rfl
  | cons t Y =>
    have : t.isSym (c% ".") = false := hY
    show (if (t.isSym (c% ".") && _) = true then _ else _) = _
    rw [this]; rfl

/-- A source without its new name, before a name or what follows a relation. -/
theorem base_read {x : Source} {r : Rel} (h : BaseText ParRel x r) :
    ∃ c ts, LexAs x.text ts ∧ (∀ Y, nextSym (c% ".") Y = false → nextKw (c% "WITH") Y = false → pRelPrimary P (ts ++ Y) = some (c, Y)) ∧
      c.conv = .ok (some r) ∧ ∀ Y, nextIs queryEnd Y = false → qStart (ts ++ Y) = false := by
  have sub : ∀ {t : Str} {q : Query}, Text t (.query q) → ∃ c, clean false (toks t) = true ∧ c.conv = .ok (some q) ∧ Bal (toks t) ∧
      ∀ Y, qStart (toks t ++ cl Y) = true ∧ pSub P (toks t ++ cl Y) = some (c, Y) := by
    intro t q h
    cases h with
    | expr _ h => exact absurd rfl (h q)
    | query hw h =>
      obtain ⟨c, hc⟩ := hw
      refine ⟨c, query_clean hc, ?_, (query_opd hc).bal, fun Y => query_close hc⟩
      unfold queryFromSql at h
      rwa [hc] at h
  cases h with
  | query h =>
    obtain ⟨c, h1, h2, h0, h3⟩ := sub h
    refine ⟨.sub c, _, lexAs_par h1, fun Y _ _ => ?_, ?_, fun Y hY => ?_⟩
    · rw [pt_app, List.nil_append, pRelPrimary]
      refine ite_t rfl (ite_t (h3 Y).1 ?_)
      exact bind_s (h3 Y).2 rfl
    · rw [CR_conv_sub, h2]; rfl
    · rw [pt_app, List.nil_append]
      show (false || (_ && afterClose (nextIs queryEnd) (_ ++ symT (c% ")") :: Y))) = false
      rw [after_close h0, hY, Bool.and_false]; rfl
  | @table m hm =>
    refine ⟨.table [nameTok m], _, lexAs_quoted hm, fun Y hY _ => ?_, ?_, fun Y _ => rfl⟩
    · show pRelPrimary P (nameTok m :: Y) = _
      rw [pRelPrimary]
      refine ite_f rfl (ite_f rfl (ite_f rfl ?_))
      refine bind_s (a := ([nameTok m], Y)) ?_ rfl
      cases Y with
      | nil => rfl
      | cons t Y =>
        have : t.isSym (c% ".") = false := hY
        show (if (t.isSym (c% ".") && _) = true then _ else _) = _
        rw [this]; rfl
    · rw [CR_conv_table]
      show ((identText (nameTok m) >>= _) >>= _) = _
      rw [ident_quoted hm]; rfl
  | @inSchema s m hs hm =>
    refine ⟨.table [nameTok s, nameTok m], _, lexAs_dot hs (lexAs_quoted hm), fun Y hY _ => ?_, ?_, fun Y _ => rfl⟩
    · show pRelPrimary P (nameTok s :: symT (c% ".") :: nameTok m :: Y) = _
      rw [pRelPrimary]
      refine ite_f rfl (ite_f rfl (ite_f rfl ?_))
      refine bind_s (a := ([nameTok s, nameTok m], Y)) ?_ rfl
      show (pQName (nameTok m :: Y)).map _ = _
      rw [qname_one hY]; rfl
    · rw [CR_conv_table]
      show ((identText (nameTok s) >>= fun a => (identText (nameTok m) >>= _) >>= _) >>= _) = _
      rw [ident_quoted hs, ident_quoted hm]
      exact ebind (a := [s, m]) rfl rfl
  | @inCatalog c s m hc hs hm hne =>
    refine ⟨.table [nameTok c, nameTok s, nameTok m], _, lexAs_dot hc (lexAs_dot hs (lexAs_quoted hm)), fun Y hY _ => ?_, ?_, fun Y _ => rfl⟩
    · show pRelPrimary P (nameTok c :: symT (c% ".") :: nameTok s :: symT (c% ".") :: nameTok m :: Y) = _
      rw [pRelPrimary]
      refine ite_f rfl (ite_f rfl (ite_f rfl ?_))
      refine bind_s (a := ([nameTok c, nameTok s, nameTok m], Y)) ?_ rfl
      show ((pQName (nameTok m :: Y)).map _).map _ = _
      rw [qname_one hY]; rfl
    · rw [CR_conv_table]
      have hi : identTexts [nameTok c, nameTok s, nameTok m] = .ok [c, s, m] := by
        show (identText (nameTok c) >>= fun a => (identText (nameTok s) >>= fun b => (identText (nameTok m) >>= _) >>= _) >>= _) = _
        rw [ident_quoted hc, ident_quoted hs, ident_quoted hm]; rfl
      refine ebind hi ?_
      cases s with
      | nil => exact absurd rfl hne
      | cons a s => cases c <;> rfl
  | @unnest ss es o hne hs =>
    obtain ⟨cs, k1, k2, k3⟩ := each_read hs
    obtain ⟨tys, hty⟩ := texts_check hs
    have ho : ∃ os, LexAs (if o then c% " WITH ORDINALITY " else []) os ∧
        ∀ Y, nextKw (c% "WITH") Y = false → optOrdinality (os ++ Y) = (o, Y) := by
      cases o with
      | false =>
        refine ⟨[], LexAs.nil, fun Y hY => ?_⟩
        show optOrdinality Y = _
        rw [optOrdinality]
        refine ite_f ?_ rfl
        match Y, hY with
        | [], _ => rfl
        | [t], _ => rfl
        | t :: u :: Y, hY =>
          have : t.isKw (c% "WITH") = false := hY
          show (t.isKw (c% "WITH") && _) = false
          rw [this]; rfl
      | true => exact ⟨[kwT (c% "WITH"), kwT (c% "ORDINALITY")], (lexAs_kw (w := c% "ITH") (fun _ => rfl) rfl).app
          (lexAs_word (w := c% "RDINALITY") (fun _ => rfl) rfl), fun Y _ => rfl⟩
    obtain ⟨os, o1, o2⟩ := ho
    refine ⟨.unnest cs o, _, (lexAs_word (c := 'U') (t := kwT (c% "UNNEST")) (w := c% "NNEST") (fun _ => rfl) rfl).app
      (lexAs_sym_open.app ((lexAs_list k3).app (lexAs_sym_close.app o1))), fun Y _ hY => ?_, ?_, fun Y _ => rfl⟩
    · have e : [kwT (c% "UNNEST")] ++ ([symT (c% "(")] ++ (ptList [] (ss.map toks) ++ ([symT (c% ")")] ++ os))) ++ Y =
          kwT (c% "UNNEST") :: symT (c% "(") :: ptList (cl (os ++ Y)) (ss.map toks) := by
        simp only [List.append_assoc, List.cons_append, List.nil_append, cl, ← ptList_app (symT (c% ")") :: (os ++ Y))]
      rw [e, pRelPrimary]
      refine ite_f rfl (ite_t rfl ?_)
      refine bind_s (a := ptList (cl (os ++ Y)) (ss.map toks)) rfl ?_
      refine bind_s (exprs_list (Y := cl (os ++ Y)) (Stop.free rfl) rfl rfl (by simpa using hne) k1) ?_
      refine bind_s (a := os ++ Y) rfl ?_
      rw [o2 Y hY]
    · rw [CR_conv_unnest]
      refine ebind k2 ?_
      rw [Rel.build, Rel_check_unnest, hty]; rfl
  | @lateral t q h =>
    obtain ⟨c, h1, h2, h0, h3⟩ := sub h
    refine ⟨.lateral c, _, (lexAs_word (c := 'L') (t := kwT (c% "LATERAL")) (w := c% "ATERAL") (fun _ => rfl) rfl).app (lexAs_par h1),
      fun Y _ _ => ?_, ?_, fun Y _ => rfl⟩
    · rw [List.append_assoc, pt_app, List.nil_append]
      show pRelPrimary P (kwT (c% "LATERAL") :: pt (toks t) Y) = _
      rw [pRelPrimary]
      refine ite_f rfl (ite_f rfl (ite_t rfl ?_))
      exact bind_s (a := toks t ++ cl Y) rfl (bind_s (h3 Y).2 rfl)
    · rw [CR_conv_lateral, h2]
      refine ebind (a := some q) rfl (ebind (a := q) rfl ?_)
      obtain ⟨ty, hty⟩ := made_CQ c q h2
      rw [Rel.build, Rel_check_lateral, hty]; rfl
  | @joined t r h =>
    obtain ⟨c, ts, h1, h2, h3, h4⟩ := h
    have e : ∀ Y, [symT (c% "(")] ++ (ts ++ [symT (c% ")")]) ++ Y = symT (c% "(") :: (ts ++ cl Y) := by
      intro Y; simp [cl]
    refine ⟨.paren c, _, lexAs_sym_open.app (h1.app lexAs_sym_close), fun Y _ _ => ?_, ?_, fun Y _ => ?_⟩
    · rw [e, pRelPrimary]
      refine ite_t rfl (ite_f (h3 Y) ?_)
      exact bind_s (h2 Y) (bind_s (a := Y) rfl rfl)
    · rw [CR_conv_paren]; exact h4
    · rw [e]
      have := h3 Y
      rw [qStart, Bool.or_eq_false_iff] at this
      show (false || (qnwStart (ts ++ cl Y) && _)) = false
      rw [this.2]; rfl

theorem aliased_read {x : Source} {o : Option (Str × List Str)} {r : Rel} (h : AliasedText ParRel x o r) :
    ∃ c ts, LexAs (x.text ++ aliasText o) ts ∧ (∀ Y, Hd tMark Y → pAliased P (ts ++ Y) = some (c, Y)) ∧ c.conv = .ok (some r) ∧
      ∀ Y, Hd (kwT (c% "TABLESAMPLE") :: tJoin) Y → qStart (ts ++ Y) = false := by
  cases h with
  | plain h =>
    obtain ⟨c, ts, h1, h2, h3, h4⟩ := base_read h
    refine ⟨c, _, h1.app LexAs.nil, fun Y hY => alias_none hY ?_, h3, fun Y hY => ?_⟩ <;> rw [List.append_nil]
    · exact h2 Y (hY.nextSym _ (by decide +kernel)) (hY.nextKw _ (by decide +kernel))
    · exact h4 Y (hY.next _ (by decide +kernel))
  | @named _ r n ns h hn hns =>
    obtain ⟨c, ts, h1, h2, h3, h4⟩ := base_read h
    cases ns with
    | nil =>
      refine ⟨_, _, h1.app (lexAs_blank (lexAs_quoted hn)), fun Y hY => alias_some (cols := []) (Z := Y) ?_ ?_, alias_conv (ns := []) hn rfl h3, fun Y hY => ?_⟩
      · rw [optColumns]
        exact ite_f (hY.nextSym _ (by decide +kernel)) rfl
      · rw [List.append_assoc]
        exact h2 _ rfl rfl
      · rw [List.append_assoc]
        exact h4 _ rfl
    | cons m ns =>
      obtain ⟨us, u1, u2, u3⟩ := columns_read (ns := m :: ns) (by simp) hns
      have hl := (lexAs_quoted hn).app u1
      rw [List.append_assoc] at hl
      refine ⟨_, _, h1.app (lexAs_blank hl), fun Y hY => alias_some (Z := symT (c% "(") :: us ++ Y) ?_ ?_, alias_conv hn u3 h3, fun Y hY => ?_⟩
      · rw [optColumns]
        exact ite_t rfl (u2 Y)
      · rw [List.append_assoc]
        exact h2 _ rfl rfl
      · rw [List.append_assoc]
        exact h4 _ rfl

theorem source_read {x : Source} {m : SourceMark} {r : Rel} (h : SourceText ParRel x m r) :
    ∃ c ts, LexAs (x.text ++ m.text) ts ∧ (∀ Y, Hd tRel Y → pSampled P (ts ++ Y) = some (c, Y)) ∧ c.conv = .ok (some r) ∧
      ∀ Y, Hd tJoin Y → qStart (ts ++ Y) = false := by
  cases h with
  | whole h =>
    obtain ⟨c, ts, h1, h2, h3, h4⟩ := aliased_read h
    refine ⟨c, ts, ?_, fun Y hY => ?_, h3, fun Y hY => h4 Y hY.tail⟩
    · show LexAs (_ ++ (_ ++ [])) _
      rw [List.append_nil]; exact h1
    · rw [pSampled]
      refine bind_s (h2 Y hY.tail) ?_
      dsimp only
      rw [hY.kwNone _ (by decide +kernel)]
  | @sample _ n r k s e h he =>
    obtain ⟨c, ts, h1, h2, h3, h4⟩ := aliased_read h
    obtain ⟨d, hd, hv, hcl⟩ := text_is he
    have hk : ∃ t : Tok, LexAs (sampleWord k) [t] ∧ (∀ Z, tokIf (Tok.isKwOf [c% "BERNOULLI", c% "SYSTEM"]) (t :: Z) = some (t, Z)) ∧
        sampleOf t = .ok k := by
      cases k with
      | bernoulli => exact ⟨kwT (c% "BERNOULLI"), lexAs_word (w := c% "ERNOULLI") (fun _ => rfl) rfl, fun _ => rfl, rfl⟩
      | system => exact ⟨kwT (c% "SYSTEM"), lexAs_word (w := c% "YSTEM") (fun _ => rfl) rfl, fun _ => rfl, rfl⟩
    obtain ⟨t, k1, k2, k3⟩ := hk
    have hl := h1.app ((lexAs_kw (c := 'T') (t := kwT (c% "TABLESAMPLE")) (w := c% "ABLESAMPLE") (fun _ => rfl) rfl).app
      (k1.app (lexAs_sym_open.app ((lexAs_par hcl).app lexAs_sym_close))))
    rw [List.append_assoc] at hl
    refine ⟨.sample c t d, _, hl, fun Y hY => ?_, ?_, fun Y hY => ?_⟩
    · have e1 : ts ++ ([kwT (c% "TABLESAMPLE")] ++ ([t] ++ ([symT (c% "(")] ++ (pt (toks s) [] ++ [symT (c% ")")])))) ++ Y =
          ts ++ kwT (c% "TABLESAMPLE") :: t :: symT (c% "(") :: pt (toks s) (cl Y) := by
        rw [pt_app]
        simp [pt, cl]
      rw [e1, pSampled]
      refine bind_s (h2 _ Hd.first) ?_
      refine bind_s (k2 _) ?_
      refine bind_s (a := pt (toks s) (cl Y)) rfl ?_
      refine bind_s (operand_pt (by omega) hd (Stop.free rfl) rfl) ?_
      exact bind_s (a := Y) rfl rfl
    · rw [CR_conv_sample]
      refine ebind h3 (ebind k3 (ebind hv (ebind (a := r) rfl ?_)))
      obtain ⟨ty, hty⟩ := made_CE d e hv
      rw [Rel.build, Rel_check_sample, made_CR c r h3, hty]; rfl
    · rw [List.append_assoc]
      exact h4 _ Hd.first

/-- The words of a join. -/
theorem join_word {w : Str} {k : JoinType} (h : (w, k) ∈ joinTexts) :
    ∃ t ts j, LexAs w (t :: ts) ∧ tWord.contains t = true ∧ (∀ Y, pJoinType (t :: ts ++ Y) = some (j, Y)) ∧ j.conv = k ∧
      joinConfigOk k false true = true ∧ joinConfigOk k true false = true := by
  have one : ∀ {c d : Char} {u v : Str} {t t' : Tok}, (∀ y, lexOne c (u ++ ' ' :: y) = (t, ' ' :: y)) → t.visible = true →
      (∀ y, lexOne d (v ++ ' ' :: y) = (t', ' ' :: y)) → t'.visible = true → LexAs (' ' :: c :: (u ++ ' ' :: d :: (v ++ [' ']))) [t, t'] := by
    intro c d u v t t' h1 h2 h3 h4
    have := (lexAs_kw h1 h2).app (lexAs_word h3 h4)
    simpa using this
  simp only [joinTexts, List.mem_cons, List.not_mem_nil, or_false, Prod.mk.injEq] at h
  rcases h with ⟨rfl, rfl⟩ | ⟨rfl, rfl⟩ | ⟨rfl, rfl⟩ | ⟨rfl, rfl⟩ | ⟨rfl, rfl⟩ | ⟨rfl, rfl⟩ | ⟨rfl, rfl⟩ | ⟨rfl, rfl⟩
  · exact ⟨kwT (c% "JOIN"), [], .inner false, lexAs_kw (w := c% "OIN") (fun _ => rfl) rfl, by decide +kernel, fun _ => rfl, rfl, rfl, rfl⟩
  · exact ⟨kwT (c% "INNER"), [kwT (c% "JOIN")], .inner true,
      (lexAs_kw (w := c% "NNER") (fun _ => rfl) rfl).app (lexAs_word (w := c% "OIN") (fun _ => rfl) rfl), by decide +kernel, fun _ => rfl, rfl, rfl, rfl⟩
  · exact ⟨kwT (c% "LEFT"), [kwT (c% "JOIN")], .left false,
      (lexAs_kw (w := c% "EFT") (fun _ => rfl) rfl).app (lexAs_word (w := c% "OIN") (fun _ => rfl) rfl), by decide +kernel, fun _ => rfl, rfl, rfl, rfl⟩
  · exact ⟨kwT (c% "LEFT"), [kwT (c% "OUTER"), kwT (c% "JOIN")], .left true,
      ((lexAs_kw (w := c% "EFT") (fun _ => rfl) rfl).app (lexAs_word (w := c% "UTER") (fun _ => rfl) rfl)).app
        (lexAs_word (w := c% "OIN") (fun _ => rfl) rfl), by decide +kernel, fun _ => rfl, rfl, rfl, rfl⟩
  · exact ⟨kwT (c% "RIGHT"), [kwT (c% "JOIN")], .right false,
      (lexAs_kw (w := c% "IGHT") (fun _ => rfl) rfl).app (lexAs_word (w := c% "OIN") (fun _ => rfl) rfl), by decide +kernel, fun _ => rfl, rfl, rfl, rfl⟩
  · exact ⟨kwT (c% "RIGHT"), [kwT (c% "OUTER"), kwT (c% "JOIN")], .right true,
      ((lexAs_kw (w := c% "IGHT") (fun _ => rfl) rfl).app (lexAs_word (w := c% "UTER") (fun _ => rfl) rfl)).app
        (lexAs_word (w := c% "OIN") (fun _ => rfl) rfl), by decide +kernel, fun _ => rfl, rfl, rfl, rfl⟩
  · exact ⟨kwT (c% "FULL"), [kwT (c% "JOIN")], .full false,
      (lexAs_kw (w := c% "ULL") (fun _ => rfl) rfl).app (lexAs_word (w := c% "OIN") (fun _ => rfl) rfl), by decide +kernel, fun _ => rfl, rfl, rfl, rfl⟩
  · exact ⟨kwT (c% "FULL"), [kwT (c% "OUTER"), kwT (c% "JOIN")], .full true,
      ((lexAs_kw (w := c% "ULL") (fun _ => rfl) rfl).app (lexAs_word (w := c% "UTER") (fun _ => rfl) rfl)).app
        (lexAs_word (w := c% "OIN") (fun _ => rfl) rfl), by decide +kernel, fun _ => rfl, rfl, rfl, rfl⟩

theorem lexAs_on : LexAs (c% " ON ") [kwT (c% "ON")] := lexAs_kw (w := c% "N") (fun _ => rfl) rfl

/-- One join: the loop goes on with the joined relation. -/
theorem join_read {r r1 : Rel} {j : JoinText} (h : JoinStep ParRel r j r1) {c : CR} (hc : c.conv = .ok (some r)) :
    ∃ c1 t ts, LexAs j.text (t :: ts) ∧ tJoin.contains t = true ∧
      (∀ Y, Hd (tJoin ++ tEnd) Y → P (.relLoop c) (t :: ts ++ Y) = P (.relLoop c1) Y) ∧ c1.conv = .ok (some r1) := by
  have word : ∀ t, tWord.contains t = true → ∀ ts, nextKw (c% "CROSS") (t :: ts) = false ∧ nextKw (c% "NATURAL") (t :: ts) = false ∧
      nextIs (Tok.isKwOf joinWords) (t :: ts) = true ∧ tJoin.contains t = true := by
    intro t ht ts
    refine ⟨(Hd.cons ht : Hd tWord _).nextKw _ (by decide +kernel), (Hd.cons ht : Hd tWord _).nextKw _ (by decide +kernel), ?_, ?_⟩
    · have : tWord.all (Tok.isKwOf joinWords) = true := by decide +kernel
      exact List.all_eq_true.1 this t (List.contains_iff_mem.1 ht)
    · have : tWord.all tJoin.contains = true := by decide +kernel
      exact List.all_eq_true.1 this t (List.contains_iff_mem.1 ht)
  have rel : ∀ {cx : CR} {xs Z : List Tok}, (∀ Y, Hd tRel Y → pSampled P (xs ++ Y) = some (cx, Y)) → Hd [kwT (c% "ON"), kwT (c% "USING")] Z →
      P .rel (xs ++ Z) = some (cx, Z) := by
    intro cx xs Z hx hZ
    rw [P_rel]
    refine bind_s (hx _ (hZ.sub (by decide +kernel))) ?_
    show P (.relLoop cx) Z = _
    rw [P_relLoop, pRelLoop]
    exact ite_f (hZ.nextKw _ (by decide +kernel)) (ite_f (hZ.nextKw _ (by decide +kernel)) (ite_f (hZ.next _ (by decide +kernel)) rfl))
  have build : ∀ {cx : CR} {y : Rel} {k : JoinType} {nat : Bool} {cr : Option Crit}, cx.conv = .ok (some y) → Crit.checkOpt cr = .ok () →
      joinConfigOk k nat cr.isSome = true → Rel.build (.join r y k nat cr) = .ok (.join r y k nat cr) := by
    intro cx y k nat cr hx hcr hk
    rw [Rel.build, Rel_check_join, made_CR c r hc, made_CR cx y hx]
    show ((Crit.checkOpt cr >>= _) >>= _) = _
    rw [hcr]
    show ((if joinConfigOk k nat cr.isSome then _ else _) >>= _) = _
    rw [hk]; rfl
  cases h with
  | @on _ w x n s k y e hw hx he =>
    obtain ⟨t, ws, cj, w1, w2, w3, w4, w5, _⟩ := join_word hw
    obtain ⟨cx, xs, x1, x2, x3, _⟩ := source_read hx
    obtain ⟨ce, e1, e2, e3⟩ := text_is he
    have hl := w1.app (x1.app (lexAs_on.app (lexAs_par e3)))
    rw [List.append_assoc] at hl
    obtain ⟨_, _, _, k4⟩ := word t w2 []
    refine ⟨.join c cj cx (.on ce), t, _, hl, k4, fun Y hY => ?_, ?_⟩
    · have e : t :: (ws ++ (xs ++ ([kwT (c% "ON")] ++ pt (toks s) []))) ++ Y = t :: (ws ++ (xs ++ kwT (c% "ON") :: pt (toks s) Y)) := by
        simp [pt, cl]
      refine (congrArg (P (.relLoop c)) e).trans ?_
      rw [P_relLoop, pRelLoop]
      obtain ⟨k1, k2, k3, _⟩ := word t w2 (ws ++ (xs ++ kwT (c% "ON") :: pt (toks s) Y))
      refine ite_f k1 (ite_f k2 (ite_t k3 ?_))
      refine bind_s (w3 _) (bind_s (rel x2 Hd.first) ?_)
      refine bind_s (a := (.on ce, Y)) ?_ rfl
      show (P (.lv 0) (pt (toks s) Y) >>= _) = _
      exact bind_s (operand_pt (by omega) e1 (hY.stop (by decide +kernel) 0) (hY.nextSym _ (by decide +kernel))) rfl
    · rw [CR_conv_join, hc, x3]
      show (CCrit.conv (.on ce) >>= _) = _
      rw [CCrit_conv_on, e2]
      show (Rel.build (.join r y cj.conv false (some (.on e))) >>= _) = _
      obtain ⟨te, hte⟩ := made_CE ce e e2
      rw [w4, build x3 (by show Crit.check (.on e) = _; rw [Crit_check_on, hte]; rfl) w5]
      rfl
  | @«using» _ w x n cs k y hw hx hne hq =>
    obtain ⟨t, ws, cj, w1, w2, w3, w4, w5, _⟩ := join_word hw
    obtain ⟨cx, xs, x1, x2, x3, _⟩ := source_read hx
    obtain ⟨us, u1, u2, u3⟩ := columns_read hne hq
    have hl := w1.app (x1.app ((lexAs_kw (c := 'U') (t := kwT (c% "USING")) (w := c% "SING") (fun _ => rfl) rfl).app u1))
    rw [List.append_assoc] at hl
    obtain ⟨_, _, _, k4⟩ := word t w2 []
    refine ⟨.join c cj cx (.using (cs.map nameTok)), t, _, hl, k4, fun Y hY => ?_, ?_⟩
    · have e : t :: (ws ++ (xs ++ ([kwT (c% "USING")] ++ symT (c% "(") :: us))) ++ Y = t :: (ws ++ (xs ++ kwT (c% "USING") :: (symT (c% "(") :: us ++ Y))) := by
        simp
      refine (congrArg (P (.relLoop c)) e).trans ?_
      rw [P_relLoop, pRelLoop]
      obtain ⟨k1, k2, k3, _⟩ := word t w2 (ws ++ (xs ++ kwT (c% "USING") :: (symT (c% "(") :: us ++ Y)))
      refine ite_f k1 (ite_f k2 (ite_t k3 ?_))
      refine bind_s (w3 _) (bind_s (rel x2 (Hd.cons (by decide +kernel))) ?_)
      refine bind_s (a := (.using (cs.map nameTok), Y)) ?_ rfl
      show (pColumns (symT (c% "(") :: us ++ Y) >>= _) = _
      exact bind_s (u2 Y) rfl
    · rw [CR_conv_join, hc, x3]
      show (CCrit.conv (.using (cs.map nameTok)) >>= _) = _
      rw [CCrit_conv_using, u3]
      show (Rel.build (.join r y cj.conv false (some (.using cs))) >>= _) = _
      rw [w4, build x3 rfl w5]
      rfl
  | @natural _ w x n k y hw hx =>
    obtain ⟨t, ws, cj, w1, w2, w3, w4, _, w5⟩ := join_word hw
    obtain ⟨cx, xs, x1, x2, x3, _⟩ := source_read hx
    refine ⟨.natural c cj cx, kwT (c% "NATURAL"), _,
      (lexAs_kw (c := 'N') (t := kwT (c% "NATURAL")) (w := c% "ATURAL") (fun _ => rfl) rfl).app (w1.app x1), by decide +kernel, fun Y hY => ?_, ?_⟩
    · have e : kwT (c% "NATURAL") :: (t :: ws ++ xs) ++ Y = kwT (c% "NATURAL") :: (t :: ws ++ (xs ++ Y)) := by simp
      refine (congrArg (P (.relLoop c)) e).trans ?_
      rw [P_relLoop, pRelLoop]
      refine ite_f rfl (ite_t rfl ?_)
      exact bind_s (w3 _) (bind_s (x2 Y (hY.sub (by decide +kernel))) rfl)
    · rw [CR_conv_natural, hc, x3]
      show (Rel.build (.join r y cj.conv true none) >>= _) = _
      rw [w4, build x3 rfl w5]
      rfl
  | @cross _ x n y hx =>
    obtain ⟨cx, xs, x1, x2, x3, _⟩ := source_read hx
    refine ⟨.cross c cx, kwT (c% "CROSS"), _,
      ((lexAs_kw (c := 'C') (t := kwT (c% "CROSS")) (w := c% "ROSS") (fun _ => rfl) rfl).app
        (lexAs_word (c := 'J') (t := kwT (c% "JOIN")) (w := c% "OIN") (fun _ => rfl) rfl)).app x1, by decide +kernel, fun Y hY => ?_, ?_⟩
    · have e : kwT (c% "CROSS") :: ([kwT (c% "JOIN")] ++ xs) ++ Y = kwT (c% "CROSS") :: kwT (c% "JOIN") :: (xs ++ Y) := by simp
      refine (congrArg (P (.relLoop c)) e).trans ?_
      rw [P_relLoop, pRelLoop]
      refine ite_t rfl ?_
      exact bind_s (a := xs ++ Y) rfl (bind_s (x2 Y (hY.sub (by decide +kernel))) rfl)
    · rw [CR_conv_cross, hc, x3]
      show (Rel.build (.join r y .cross false none) >>= _) = _
      rw [build x3 rfl rfl]
      rfl

theorem joins_read : ∀ {js : List JoinText} {r r' : Rel}, Joined ParRel r js r' → ∀ {c : CR}, c.conv = .ok (some r) →
    ∃ c' ts, LexAs (joinText js) ts ∧ (∀ Y, Hd tEnd Y → P (.relLoop c) (ts ++ Y) = some (c', Y) ∧ Hd (tJoin ++ tEnd) (ts ++ Y)) ∧
      c'.conv = .ok (some r') ∧ (js ≠ [] → ∀ Y, Hd tJoin (ts ++ Y))
  | [], r, _, .nil, c, hc => by
    refine ⟨c, [], LexAs.nil, fun Y hY => ⟨?_, hY.sub (by decide +kernel)⟩, hc, fun h => absurd rfl h⟩
    show P (.relLoop c) Y = _
    rw [P_relLoop, pRelLoop]
    exact ite_f (hY.nextKw _ (by decide +kernel)) (ite_f (hY.nextKw _ (by decide +kernel)) (ite_f (hY.next _ (by decide +kernel)) rfl))
  | j :: js, r, r', .cons (r1 := r1) hj hjs, c, hc => by
    obtain ⟨c1, t, us, u1, u2, u3, u4⟩ := join_read hj hc
    obtain ⟨c', ts, j1, j2, j3, _⟩ := joins_read hjs u4
    refine ⟨c', _, u1.app j1, fun Y hY => ?_, j3, fun _ Y => .inr ⟨t, List.contains_iff_mem.1 u2, _, rfl⟩⟩
    obtain ⟨j4, j5⟩ := j2 Y hY
    rw [List.append_assoc]
    refine ⟨(u3 _ j5).trans j4, .inr ⟨t, List.mem_append_left _ (List.contains_iff_mem.1 u2), _, rfl⟩⟩

theorem joined_par {f : FromText} {r r' : Rel} (hne : f.joins ≠ []) (hs : SourceText ParRel f.source f.mark r)
    (hj : Joined ParRel r f.joins r') : ParRel f.text r' := by
  obtain ⟨c, xs, x1, x2, x3, x4⟩ := source_read hs
  obtain ⟨c', ts, j1, j2, j3, j4⟩ := joins_read hj x3
  have hl := x1.app j1
  rw [List.append_assoc] at hl
  refine ⟨c', _, hl, fun Y => ?_, fun Y => ?_, j3⟩
  · obtain ⟨k1, k2⟩ := j2 (cl Y) Hd.first
    rw [List.append_assoc, P_rel]
    exact bind_s (x2 _ (k2.sub (by decide +kernel))) k1
  · rw [List.append_assoc]
    exact x4 _ (j4 hne _)

mutual
theorem rel_par : ∀ {s : Str} {r : Rel}, RelText s r → ParRel s r
  | _, _, .mk hne hs hj => joined_par hne (source_par hs) (joins_par hj)
theorem base_par : ∀ {x : Source} {r : Rel}, BaseText RelText x r → BaseText ParRel x r
  | _, _, .query h => .query h
  | _, _, .table h => .table h
  | _, _, .inSchema h1 h2 => .inSchema h1 h2
  | _, _, .inCatalog h1 h2 h3 h4 => .inCatalog h1 h2 h3 h4
  | _, _, .unnest h1 h2 => .unnest h1 h2
  | _, _, .lateral h => .lateral h
  | _, _, .joined h => .joined (rel_par h)
theorem aliased_par : ∀ {x : Source} {n : Option (Str × List Str)} {r : Rel}, AliasedText RelText x n r → AliasedText ParRel x n r
  | _, _, _, .plain h => .plain (base_par h)
  | _, _, _, .named h h1 h2 => .named (base_par h) h1 h2
theorem source_par : ∀ {x : Source} {m : SourceMark} {r : Rel}, SourceText RelText x m r → SourceText ParRel x m r
  | _, _, _, .whole h => .whole (aliased_par h)
  | _, _, _, .sample h h1 => .sample (aliased_par h) h1
theorem step_par : ∀ {r : Rel} {j : JoinText} {r' : Rel}, JoinStep RelText r j r' → JoinStep ParRel r j r'
  | _, _, _, .on h h1 h2 => .on h (source_par h1) h2
  | _, _, _, .using h h1 h2 h3 => .using h (source_par h1) h2 h3
  | _, _, _, .natural h h1 => .natural h (source_par h1)
  | _, _, _, .cross h => .cross (source_par h)
theorem joins_par : ∀ {r : Rel} {js : List JoinText} {r' : Rel}, Joined RelText r js r' → Joined ParRel r js r'
  | _, _, _, .nil => .nil
  | _, _, _, .cons h hs => .cons (step_par h) (joins_par hs)
end

theorem lexAs_from : LexAs (c% " FROM ") [kwT (c% "FROM")] := lexAs_kw (w := c% "ROM") (fun _ => rfl) rfl

theorem part_from {o : Option FromText} {r : Option Rel} (h : FromRead o r) :
    ∃ cs, PartR (fromClause o) (optFrom P) tFrom tWhere cs ∧ (CR.convs cs >>= fromOf) = .ok r := by
  cases h with
  | none =>
    refine ⟨[], ⟨[], LexAs.nil, fun Y hY => ⟨?_, hY.tail⟩⟩, rfl⟩
    show optFrom P Y = _
    rw [optFrom, hY.kwNone _ (by decide +kernel)]
  | some hx hj =>
    obtain ⟨c, xs, x1, x2, x3, _⟩ := source_read (source_par hx)
    obtain ⟨c', ts, j1, j2, j3, _⟩ := joins_read (joins_par hj) x3
    have hl := lexAs_from.app (x1.app j1)
    rw [List.append_assoc] at hl
    refine ⟨[c'], ⟨_, hl, fun Y hY => ⟨?_, Hd.first⟩⟩, ?_⟩
    · obtain ⟨j4, j5⟩ := j2 Y hY.tail
      rw [List.append_assoc, List.append_assoc]
      show P .rels (xs ++ (ts ++ Y)) = _
      rw [P_rels, pSep]
      refine bind_s (a := (c', Y)) ?_ ?_
      · rw [P_rel]
        exact bind_s (x2 _ (j5.sub (by decide +kernel))) j4
      · dsimp only
        rw [hY.symNone _ (by decide +kernel)]
    · rw [CR_convs_cons, j3]; rfl

/-! ## GROUP BY -/

theorem set_read {s : Str} {e : Expr} (h : Text s e) {after : List Tok}
    (h1 : after.all (fun t => t.frank.isNone) = true) (h2 : after.all (fun t => !t.isSym (c% "->")) = true)
    (h3 : after.all (fun t => !t.rank.isSome) = true) :
    ∃ c, clean false (toks s) = true ∧ (∀ Y, Hd after Y → pSet P (pt (toks s) Y) = some (c, Y)) ∧ c.conv = .ok [e] := by
  cases h with
  | expr h hq =>
    obtain ⟨c', _, hv, hcl⟩ := text_is (.expr h hq)
    unfold expressionFromSql at h
    split at h
    · rename_i c hc
      have hs : c.isSub = false := by
        cases c <;> try rfl
        rename_i q
        exfalso
        rw [CE_conv_sub] at h
        obtain ⟨a, _, h⟩ := bind_ok h
        obtain ⟨b, _, h⟩ := bind_ok h
        cases h
        exact hq _ rfl
      refine ⟨.paren [c], hcl, fun Y hY => ?_, ?_⟩
      · have hst := start_expr (Y := Y) hc hs
        obtain ⟨used, b1, hb, hne⟩ := lv_bal P_sound hc
        rw [List.append_nil] at b1
        rw [← b1] at hb
        rw [pSet]
        refine ite_t ?_ ?_
        · show (true && (setEnd (toks s ++ cl Y) && !inStart (toks s ++ cl Y))) = true
          rw [inStart, hst, setEnd, cl, after_close hb]
          simp only [Bool.false_and, Bool.not_false, Bool.and_true, Bool.true_and]
          rw [hY.next _ h3]; rfl
        · refine bind_s (a := ([c], Y)) ?_ rfl
          show pArgs P (c% ")") (toks s ++ cl Y) = _
          have he : P .exprs (toks s ++ cl Y) = some ([c], cl Y) := by
            rw [P_exprs, pSep]
            refine bind_s (P_ext Y _ _ _ hc).2 ?_
            rfl
          have hn : sym (c% ")") (toks s ++ cl Y) = none := by
            have hsc : scanClose 0 (toks s) = none := by
              have := hb 0 []
              rw [List.append_nil] at this
              rw [this]; rfl
            cases hts : toks s with
            | nil => exact absurd (b1.symm.trans hts) hne
            | cons t us =>
              rw [hts, scanClose] at hsc
              have ht : t.isSym (c% ")") = false := by
                cases ht : t.isSym (c% ")") with
                | false => rfl
                | true =>
                  have ho : t.isSym (c% "(") = false := by rw [isSym_eq ht]; rfl
                  rw [ho, ht] at hsc
                  cases hsc
              show sym (c% ")") (t :: (us ++ cl Y)) = none
              rw [sym, ht]; rfl
          rw [pArgs, hn]
          exact bind_s he rfl
      · show (CE.convs [c]) = _
        show (c.conv >>= _) = _
        exact ebind h rfl
    · cases h
  | query hw h =>
    obtain ⟨c, hc⟩ := hw
    refine ⟨.expr (.sub c), query_clean hc, fun Y hY => ?_, ?_⟩
    · have hst := (query_close (Y := Y) hc).1
      have hn := read_start hc h
      rw [pSet]
      refine ite_f ?_ ?_
      · show (true && (setEnd (toks s ++ cl Y) && !inStart (toks s ++ cl Y))) = false
        have : nextSym (c% "(") (toks s ++ cl Y) = false := by
          cases hs : toks s with
          | nil => rfl
          | cons t us => rw [hs] at hn; exact hn
        rw [inStart, hst, this]
        simp
      · exact bind_s (operand_pt (by omega) (query_opd hc) (hY.stop h1 0) (hY.nextSym _ h2)) rfl
    · unfold queryFromSql at h
      rw [hc] at h
      rw [CSet_conv_expr, CE_conv_sub, show c.conv = _ from h]; rfl

theorem bal_list : ∀ {tss : List (List Tok)} {cs : List CE}, Each Opd tss cs → Bal (ptList [] tss)
  | [], _, .nil => Bal.nil
  | [ts], _, .cons h .nil => Bal.parens h.bal
  | ts :: us :: tss, _, .cons h hs => by
    have e : ptList [] (ts :: us :: tss) = pt ts [] ++ (symT (c% ",") :: ptList [] (us :: tss)) := by
      rw [pt_app]; rfl
    rw [e]
    exact (Bal.parens h.bal).append (Bal.cons ⟨rfl, rfl⟩ (bal_list hs))

/-- Texts in parentheses, as ROLLUP, CUBE and the sets take them. -/
theorem args_texts {ss : List Str} {es : List Expr} (h : Each Text ss es) :
    ∃ cs ts, LexAs (parList ss) ts ∧ (∀ Y, pArgs P (c% ")") (ts ++ cl Y) = some (cs, Y)) ∧ CE.convs cs = .ok es ∧ Bal ts ∧
      ts = ptList [] (ss.map toks) ∧ Each Opd (ss.map toks) cs := by
  obtain ⟨cs, k1, k2, k3⟩ := each_read h
  refine ⟨cs, _, lexAs_list k3, fun Y => ?_, k2, bal_list k1, rfl, k1⟩
  rw [ptList_app]
  cases ss with
  | nil =>
    cases h; cases k1
    rfl
  | cons s ss =>
    have hn : sym (c% ")") (ptList (cl Y) ((s :: ss).map toks)) = none := by
      cases ss <;> rfl
    rw [pArgs, hn]
    exact bind_s (exprs_list (Y := cl Y) (Stop.free rfl) rfl rfl (by simp) k1) rfl

theorem group_set {ss : List Str} {es : List Expr} (h : Each Text ss es) {after : List Tok}
    (h1 : after.all (fun t => t.frank.isNone) = true) (h2 : after.all (fun t => !t.isSym (c% "->")) = true)
    (h3 : after.all (fun t => !t.rank.isSome) = true) :
    ∃ c ts, LexAs (groupSet ss) (symT (c% "(") :: ts) ∧ (∀ Y, Hd after Y → pSet P (symT (c% "(") :: ts ++ Y) = some (c, Y)) ∧
      c.conv = .ok es := by
  have many : ss.length ≠ 1 → ∃ c ts, LexAs (c% "(" ++ (parList ss ++ c% ")")) (symT (c% "(") :: ts) ∧
      (∀ Y, Hd after Y → pSet P (symT (c% "(") :: ts ++ Y) = some (c, Y)) ∧ c.conv = .ok es := by
    intro hl
    obtain ⟨cs, ts, k1, k2, k3, k4, k5, k6⟩ := args_texts h
    refine ⟨.paren cs, ts ++ [symT (c% ")")], lexAs_sym_open.app (k1.app lexAs_sym_close), fun Y hY => ?_, k3⟩
    have e : symT (c% "(") :: (ts ++ [symT (c% ")")]) ++ Y = symT (c% "(") :: (ts ++ cl Y) := by simp [cl]
    rw [e, pSet]
    refine ite_t ?_ (bind_s (k2 Y) rfl)
    show (true && (setEnd (ts ++ cl Y) && !inStart (ts ++ cl Y))) = true
    have hi : inStart (ts ++ cl Y) = false := by
      rw [k5, ptList_app]
      match ss, h, k6, hl with
      | [], _, _, _ => rfl
      | [_], _, _, hl => exact absurd rfl hl
      | s :: t :: ss, _, .cons ho _, _ =>
        show inStart (pt (toks s) (symT (c% ",") :: _)) = false
        rw [inStart]
        show (_ && (false || afterClose _ (toks s ++ symT (c% ")") :: _))) = false
        rw [after_close ho.bal]
        exact Bool.and_false _
    rw [hi, setEnd, cl, after_close k4, hY.next _ h3]; rfl
  match ss, h, many with
  | [], h, many => exact many (by simp)
  | [s], .cons h .nil, _ =>
    obtain ⟨c, k1, k2, k3⟩ := set_read h h1 h2 h3
    refine ⟨c, _, lexAs_par k1, fun Y hY => ?_, k3⟩
    show pSet P (pt (toks s) [] ++ Y) = _
    rw [pt_app]; exact k2 Y hY
  | s :: t :: ss, h, many => exact many (by simp)

theorem group_sets : ∀ {gs : List (List Str)} {es : List (List Expr)}, gs ≠ [] → Each (Each Text) gs es →
    ∃ cs ts, LexAs (groupSets gs) ts ∧ (∀ Y, P .sets (ts ++ cl Y) = some (cs, cl Y)) ∧ CSet.convs cs = .ok es ∧ Expr.checkLists es = .ok ()
  | [g], _, _, .cons h .nil => by
    obtain ⟨c, ts, k1, k2, k3⟩ := group_set h (after := [symT (c% ")")]) (by decide +kernel) (by decide +kernel) (by decide +kernel)
    obtain ⟨tys, ht⟩ := texts_check h
    refine ⟨[c], _, k1, fun Y => ?_, ?_, ?_⟩
    · rw [P_sets, pSep]
      exact bind_s (k2 _ Hd.first) rfl
    · rw [CSet_convs_cons, k3]; rfl
    · rw [Expr_checkLists_cons, ht]; rfl
  | g :: g' :: gs, _, _, .cons h hs => by
    obtain ⟨c, ts, k1, k2, k3⟩ := group_set h (after := [symT (c% ",")]) (by decide +kernel) (by decide +kernel) (by decide +kernel)
    obtain ⟨cs, us, j1, j2, j3, j4⟩ := group_sets (by simp) hs
    obtain ⟨tys, ht⟩ := texts_check h
    refine ⟨c :: cs, _, k1.app (lexAs_comma.app j1), fun Y => ?_, ?_, ?_⟩
    · rw [List.append_assoc, List.append_assoc, P_sets, pSep]
      refine bind_s (k2 _ Hd.first) ?_
      exact bind_s (j2 Y) rfl
    · rw [CSet_convs_cons]
      exact ebind k3 (ebind j3 rfl)
    · rw [Expr_checkLists_cons, ht]; exact j4

theorem grp_read {g : GroupPart} {e : Grp} (h : GroupRead g e) {after : List Tok}
    (h1 : after.all (fun t => t.frank.isNone) = true) (h2 : after.all (fun t => !t.isSym (c% "->")) = true)
    (h3 : after.all (fun t => !t.rank.isSome) = true) :
    ∃ c t ts, LexAs g.text (t :: ts) ∧ t.isQuant = false ∧ (∀ Y, Hd after Y → pGrp P (t :: ts ++ Y) = some (c, Y)) ∧ c.conv = .ok e ∧
      e.check = .ok () := by
  cases h with
  | @set ss es h =>
    obtain ⟨c, ts, k1, k2, k3⟩ := group_set h h1 h2 h3
    obtain ⟨tys, ht⟩ := texts_check h
    have hc : (Grp.set es).check = .ok () := by rw [Grp_check_set, ht]; rfl
    refine ⟨.single c, symT (c% "("), ts, k1, rfl, fun Y hY => ?_, ?_, hc⟩
    · have hn : ∀ (k : Str) (f : Tok → Bool), next2 (Tok.isKw k) f (symT (c% "(") :: ts ++ Y) = false := by
        intro k f
        cases h : ts ++ Y with
        | nil => rw [List.cons_append, h]; rfl
        | cons a b => rw [List.cons_append, h]; rfl
      rw [pGrp]
      exact ite_f (hn _ _) (ite_f (hn _ _) (ite_f (hn _ _) (bind_s (k2 Y hY) rfl)))
    · rw [CGrp_conv_single]
      refine ebind k3 ?_
      rw [Grp.build, hc]; rfl
  | @rollup ss es hne h =>
    obtain ⟨cs, ts, k1, k2, k3, _, _, _⟩ := args_texts h
    obtain ⟨tys, ht⟩ := texts_check h
    have hc : (Grp.rollup es).check = .ok () := by
      rw [Grp_check_rollup, ht]
      cases h with
      | nil => exact absurd rfl hne
      | cons _ _ => rfl
    refine ⟨.rollup cs, kwT (c% "ROLLUP"), symT (c% "(") :: (ts ++ [symT (c% ")")]),
      (lexAs_word (c := 'R') (t := kwT (c% "ROLLUP")) (w := c% "OLLUP") (fun _ => rfl) rfl).app
        (lexAs_sym_open.app (k1.app lexAs_sym_close)), by decide +kernel, fun Y hY => ?_, ?_, hc⟩
    · have e : kwT (c% "ROLLUP") :: symT (c% "(") :: (ts ++ [symT (c% ")")]) ++ Y = kwT (c% "ROLLUP") :: symT (c% "(") :: (ts ++ cl Y) := by
        simp [cl]
      rw [e, pGrp]
      exact ite_t rfl (bind_s (k2 Y) rfl)
    · rw [CGrp_conv_rollup]
      refine ebind k3 ?_
      rw [Grp.build, hc]; rfl
  | @cube ss es hne h =>
    obtain ⟨cs, ts, k1, k2, k3, _, _, _⟩ := args_texts h
    obtain ⟨tys, ht⟩ := texts_check h
    have hc : (Grp.cube es).check = .ok () := by
      rw [Grp_check_cube, ht]
      cases h with
      | nil => exact absurd rfl hne
      | cons _ _ => rfl
    refine ⟨.cube cs, kwT (c% "CUBE"), symT (c% "(") :: (ts ++ [symT (c% ")")]),
      (lexAs_word (c := 'C') (t := kwT (c% "CUBE")) (w := c% "UBE") (fun _ => rfl) rfl).app
        (lexAs_sym_open.app (k1.app lexAs_sym_close)), by decide +kernel, fun Y hY => ?_, ?_, hc⟩
    · have e : kwT (c% "CUBE") :: symT (c% "(") :: (ts ++ [symT (c% ")")]) ++ Y = kwT (c% "CUBE") :: symT (c% "(") :: (ts ++ cl Y) := by
        simp [cl]
      rw [e, pGrp]
      exact ite_f rfl (ite_t rfl (bind_s (k2 Y) rfl))
    · rw [CGrp_conv_cube]
      refine ebind k3 ?_
      rw [Grp.build, hc]; rfl
  | @sets gs es hne h =>
    obtain ⟨cs, ts, k1, k2, k3, k4⟩ := group_sets hne h
    have hc : (Grp.sets es).check = .ok () := by
      rw [Grp_check_sets, k4]
      cases h with
      | nil => exact absurd rfl hne
      | cons _ _ => rfl
    refine ⟨.sets cs, kwT (c% "GROUPING"), kwT (c% "SETS") :: symT (c% "(") :: (ts ++ [symT (c% ")")]),
      ((lexAs_word (c := 'G') (t := kwT (c% "GROUPING")) (w := c% "ROUPING") (fun _ => rfl) rfl).app
        (lexAs_word (c := 'S') (t := kwT (c% "SETS")) (w := c% "ETS") (fun _ => rfl) rfl)).app
        (lexAs_sym_open.app (k1.app lexAs_sym_close)), by decide +kernel, fun Y hY => ?_, ?_, hc⟩
    · have e : kwT (c% "GROUPING") :: kwT (c% "SETS") :: symT (c% "(") :: (ts ++ [symT (c% ")")]) ++ Y =
          kwT (c% "GROUPING") :: kwT (c% "SETS") :: symT (c% "(") :: (ts ++ cl Y) := by
        simp [cl]
      rw [e, pGrp]
      refine ite_f rfl (ite_f rfl (ite_t rfl ?_))
      refine bind_s (a := ts ++ cl Y) rfl (bind_s (k2 Y) ?_)
      exact bind_s (a := Y) rfl rfl
    · rw [CGrp_conv_sets]
      refine ebind k3 ?_
      rw [Grp.build, hc]; rfl

theorem grps_read : ∀ {ps : List GroupPart} {gs : List Grp}, ps ≠ [] → Each GroupRead ps gs →
    ∃ cs t ts, LexAs (groupText ps) (t :: ts) ∧ t.isQuant = false ∧ (∀ Y, Hd tHaving Y → P .grps (t :: ts ++ Y) = some (cs, Y)) ∧
      CGrp.convs cs = .ok gs
  | [p], _, _, .cons h .nil => by
    obtain ⟨c, t, ts, h1, h0, h2, h3, _⟩ := grp_read h (after := tHaving) (by decide +kernel) (by decide +kernel) (by decide +kernel)
    refine ⟨[c], t, ts, h1, h0, fun Y hY => ?_, ?_⟩
    · rw [P_grps, pSep]
      refine bind_s (h2 Y hY) ?_
      rw [hY.symNone _ (by decide +kernel)]
    · rw [CGrp_convs_cons, h3]; rfl
  | p :: p' :: ps, _, _, .cons h hs => by
    obtain ⟨c, t, ts, h1, h0, h2, h3, _⟩ := grp_read h (after := [symT (c% ",")]) (by decide +kernel) (by decide +kernel) (by decide +kernel)
    obtain ⟨cs, u, us, k1, _, k2, k3⟩ := grps_read (by simp) hs
    refine ⟨c :: cs, t, ts ++ symT (c% ",") :: u :: us, ?_, h0, fun Y hY => ?_, ?_⟩
    · have := h1.app (lexAs_comma.app k1)
      simpa [groupText] using this
    · rw [P_grps, pSep]
      have e : t :: (ts ++ symT (c% ",") :: u :: us) ++ Y = t :: ts ++ (symT (c% ",") :: (u :: us ++ Y)) := by simp
      rw [e]
      refine bind_s (h2 _ Hd.first) ?_
      exact bind_s (k2 Y hY) rfl
    · rw [CGrp_convs_cons, h3, k3]; rfl

theorem lexAs_group : LexAs (c% " GROUP BY ") [kwT (c% "GROUP"), kwT (c% "BY")] :=
  (lexAs_kw (w := c% "ROUP") (fun _ => rfl) rfl).app (lexAs_word (w := c% "Y") (fun _ => rfl) rfl)
theorem part_group {ps : List GroupPart} {gs : List Grp} (h : Each GroupRead ps gs) :
    ∃ cs, PartR (listClause (c% " GROUP BY ") (groupText ps) ps.isEmpty) (optGroup P) tGroup tHaving (none, cs) ∧
      ∃ gs', CGrp.convs cs = .ok gs' ∧ groupByOf false gs' = groupOf gs := by
  cases ps with
  | nil =>
    cases h
    refine ⟨[], ⟨[], LexAs.nil, fun Y hY => ⟨?_, hY.tail⟩⟩, [], rfl, rfl⟩
    show optGroup P Y = _
    rw [optGroup, hY.kwNone _ (by decide +kernel)]
  | cons p ps =>
    obtain ⟨cs, t, ts, h1, h0, h2, h3⟩ := grps_read (by simp) h
    refine ⟨cs, ⟨_, lexAs_group.app h1, fun Y hY => ⟨?_, Hd.first⟩⟩, _, h3, ?_⟩
    · rw [List.append_assoc]
      have hq : optTok Tok.isQuant (t :: ts ++ Y) = (none, t :: ts ++ Y) := by
        show (if t.isQuant = true then _ else _) = _
        rw [h0]; rfl
      show (P .grps (optTok Tok.isQuant (t :: ts ++ Y)).2 >>= fun g => some (((optTok Tok.isQuant (t :: ts ++ Y)).1, g.1), g.2)) = _
      rw [hq]
      exact bind_s (h2 Y hY) rfl
    · cases h; rfl

/-! ## ORDER BY, OFFSET and LIMIT -/

theorem part_order {ks : List SortText} {os : List Ord} (h : Each SortRead ks os) :
    ∃ cs, PartR (listClause (c% " ORDER BY ") (sortText ks) ks.isEmpty) (optOrder P) uOrder uOffset cs ∧ CSort.convs cs = .ok os :=
  part_sorts (by decide +kernel) (by decide +kernel) (by decide +kernel) (by decide +kernel) (by decide +kernel)
    (by decide +kernel) h

theorem lexAs_offset : LexAs (c% " OFFSET ") [kwT (c% "OFFSET")] := lexAs_kw (w := c% "FFSET") (fun _ => rfl) rfl
theorem lexAs_limit : LexAs (c% " LIMIT ") [kwT (c% "LIMIT")] := lexAs_kw (w := c% "IMIT") (fun _ => rfl) rfl

theorem part_offset (o : Option Nat) : ∃ c, PartR (rowText (c% " OFFSET ") o) optOffset uOffset uLimit c ∧
    ∀ b l ob w, offsetQuery c (some (.mk b none l ob w)) = .ok (some (.mk b (o.map Int.ofNat) l ob w)) := by
  cases o with
  | none =>
    refine ⟨none, ⟨[], LexAs.nil, fun Y hY => ⟨?_, hY.tail⟩⟩, fun _ _ _ _ => rfl⟩
    show optOffset Y = _
    rw [optOffset, hY.kwNone _ (by decide +kernel)]
  | some n =>
    refine ⟨some (⟨.int, natStr n⟩, none), ⟨_, lexAs_offset.app (lexAs_nat n), fun Y hY => ⟨?_, Hd.first⟩⟩, fun b l ob w => ?_⟩
    · show (tokIf Tok.isCount (⟨.int, natStr n⟩ :: Y) >>= _) = _
      refine bind_s (a := (⟨.int, natStr n⟩, Y)) rfl ?_
      dsimp only
      rw [hY.optTok _ (by decide +kernel)]
    · show (rowCountOf ⟨.int, natStr n⟩ >>= _) = _
      refine ebind (a := (n : Int)) ?_ rfl
      rw [rowCountOf, if_pos rfl, natStr_val]

theorem part_limit (o : Option Nat) : ∃ c, PartR (rowText (c% " LIMIT ") o) optLimit uLimit [] c ∧
    ∀ b off ob w, limitQuery c (some (.mk b off none ob w)) = .ok (some (.mk b off (o.map Int.ofNat) ob w)) := by
  cases o with
  | none =>
    refine ⟨.none, ⟨[], LexAs.nil, fun Y hY => ⟨?_, hY.tail⟩⟩, fun _ _ _ _ => rfl⟩
    show optLimit Y = _
    rw [optLimit, hY.kwNone _ (by decide +kernel)]
    dsimp only
    rw [hY.kwNone _ (by decide +kernel)]
  | some n =>
    refine ⟨.limit ⟨.int, natStr n⟩, ⟨_, lexAs_limit.app (lexAs_nat n), fun Y hY => ⟨rfl, Hd.first⟩⟩, fun b off ob w => ?_⟩
    show (limitOf ⟨.int, natStr n⟩ >>= _) = _
    refine ebind (a := some (n : Int)) ?_ rfl
    rw [limitOf, if_pos rfl, natStr_val]

/-! ## WINDOW -/

theorem def_lex {n : Str} {w : WinPart} {x : Win} (hn : '"' ∉ n) (hw : WinRead w x) :
    ∃ c ts, LexAs (quoted n ++ (c% " " ++ (c% " AS " ++ (c% "(" ++ (w.text ++ c% ")"))))) ts ∧
      (∀ Y, pWinDef P (ts ++ Y) = some (.mk (nameTok n) c, Y)) ∧ c.conv = .ok x := by
  obtain ⟨c, ts, h1, h2, h3⟩ := win_read hw
  have hl := (lexAs_quoted hn).app ((lexAs_kw (c := 'A') (t := kwT (c% "AS")) (w := c% "S") (fun _ => rfl) rfl).app
    (lexAs_sym_open.app (h1.app lexAs_sym_close)))
  rw [List.append_assoc] at hl
  refine ⟨c, _, hl, fun Y => ?_, h3⟩
  have e : [nameTok n] ++ ([kwT (c% "AS")] ++ ([symT (c% "(")] ++ (ts ++ [symT (c% ")")]))) ++ Y =
      nameTok n :: kwT (c% "AS") :: symT (c% "(") :: (ts ++ symT (c% ")") :: Y) := by simp
  rw [e]
  show (P .win (ts ++ symT (c% ")") :: Y) >>= _) = _
  exact bind_s (h2 Y) rfl

theorem defs_read : ∀ {ds : List (Str × WinPart)} {ws : List (Str × Win)}, ds ≠ [] → Each DefText ds ws →
    ∃ cs ts, LexAs (defsText ds) ts ∧ (∀ Y, Hd tOrder Y → P .wdefs (ts ++ Y) = some (cs, Y)) ∧ CWinDef.convs cs = .ok ws
  | [d], _, _, .cons (b := w) h .nil => by
    obtain ⟨hn, he, hw⟩ := h
    obtain ⟨c, ts, h1, h2, h3⟩ := def_lex hn hw
    refine ⟨[.mk (nameTok d.1) c], ts, h1, fun Y hY => ?_, ?_⟩
    · rw [P_wdefs, pSep]
      refine bind_s (h2 Y) ?_
      rw [hY.symNone _ (by decide +kernel)]
    · rw [CWinDef_convs_cons]
      refine ebind (ident_quoted hn) (ebind h3 (ebind (a := []) rfl ?_))
      rw [← he]
  | d :: d' :: ds, _, _, .cons (b := w) h hs => by
    obtain ⟨hn, he, hw⟩ := h
    obtain ⟨c, ts, h1, h2, h3⟩ := def_lex hn hw
    obtain ⟨cs, us, k1, k2, k3⟩ := defs_read (by simp) hs
    refine ⟨.mk (nameTok d.1) c :: cs, ts ++ ([symT (c% ",")] ++ us), ?_, fun Y hY => ?_, ?_⟩
    · have := h1.app (lexAs_comma.app k1)
      simpa [defsText] using this
    · rw [List.append_assoc, List.append_assoc, P_wdefs, pSep]
      refine bind_s (h2 _) ?_
      exact bind_s (k2 Y hY) rfl
    · rw [CWinDef_convs_cons]
      refine ebind (ident_quoted hn) (ebind h3 (ebind k3 ?_))
      rw [← he]

theorem part_window {ds : List (Str × WinPart)} {ws : List (Str × Win)} (h : Each DefText ds ws) :
    ∃ cs, PartR (listClause (c% " WINDOW ") (defsText ds) ds.isEmpty) (optWindow P) tWindow tOrder cs ∧ CWinDef.convs cs = .ok ws := by
  cases ds with
  | nil =>
    cases h
    refine ⟨[], ⟨[], LexAs.nil, fun Y hY => ⟨?_, hY.tail⟩⟩, rfl⟩
    show optWindow P Y = _
    rw [optWindow, hY.kwNone _ (by decide +kernel)]
  | cons d ds =>
    obtain ⟨cs, ts, h1, h2, h3⟩ := defs_read (by simp) h
    exact ⟨cs, ⟨_, (lexAs_kw (c := 'W') (t := kwT (c% "WINDOW")) (w := c% "INDOW") (fun _ => rfl) rfl).app h1, fun Y hY => ⟨h2 Y hY, Hd.first⟩⟩, h3⟩

theorem windows_check : ∀ {ds : List (Str × WinPart)} {ws : List (Str × Win)}, Each DefText ds ws → Win.checkNamed ws = .ok ()
  | _, _, .nil => rfl
  | _, _, .cons (b := w) h hs => by
    obtain ⟨n, w⟩ := w
    rw [Win_checkNamed_cons, win_check h.2.2]
    exact windows_check hs

theorem windows_names : ∀ {ds : List (Str × WinPart)} {ws : List (Str × Win)}, Each DefText ds ws → ws.map Prod.fst = ds.map Prod.fst
  | _, _, .nil => rfl
  | _, _, .cons h hs => by rw [List.map_cons, List.map_cons, windows_names hs, h.2.1]

/-! ## The query -/

theorem lexAs_where : LexAs (c% " WHERE ") [kwT (c% "WHERE")] := lexAs_kw (w := c% "HERE") (fun _ => rfl) rfl
theorem lexAs_having : LexAs (c% " HAVING ") [kwT (c% "HAVING")] := lexAs_kw (w := c% "AVING") (fun _ => rfl) rfl

/-- SELECT and its quantifier. -/
theorem select_read (d : Bool) : ∃ q, LexAs (if d then c% "SELECT DISTINCT " else c% "SELECT ") (kwT (c% "SELECT") :: q.toList) ∧
    (∀ t Y, t.isQuant = false → optTok Tok.isQuant (q.toList ++ t :: Y) = (q, t :: Y)) ∧ quantOf false q = .ok d := by
  cases d
  · refine ⟨none, lexAs_word (w := c% "ELECT") (fun _ => rfl) rfl, fun t Y h => ?_, rfl⟩
    show (if t.isQuant then _ else _) = _
    rw [h]; rfl
  · exact ⟨some (kwT (c% "DISTINCT")), (lexAs_word (w := c% "ELECT") (fun _ => rfl) rfl).app (lexAs_word (w := c% "ISTINCT") (fun _ => rfl) rfl),
      fun _ _ _ => rfl, rfl⟩

theorem optText_check {o : Option Str} {e : Option Expr} (h : OptText o e) : Expr.checkOpt e = .ok () := by
  cases h with
  | none => rfl
  | some h =>
    obtain ⟨c, _, hv, _⟩ := text_is h
    obtain ⟨t, ht⟩ := made_CE c _ hv
    rw [Expr_checkOpt_some, ht]; rfl

theorem items_check : ∀ {is : List ItemPart} {es : List Expr}, Each ItemText is es → ∃ ts, Expr.checks es = .ok ts
  | _, _, .nil => ⟨[], rfl⟩
  | _, _, .cons (b := b) h hs => by
    obtain ⟨ts, hts⟩ := items_check hs
    have : ∃ t, b.check = .ok t := by
      cases h with
      | all => exact ⟨_, rfl⟩
      | allOf h => exact star_check h
      | allAs h _ _ =>
        obtain ⟨t, ht⟩ := star_check h
        exact ⟨t, by rw [Expr_check_aliasedStar, ht]⟩
      | plain h =>
        obtain ⟨c, _, hv, _⟩ := text_is h
        exact made_CE c _ hv
      | named h hn =>
        obtain ⟨c, _, hv, _⟩ := text_is h
        obtain ⟨t, ht⟩ := made_CE c _ hv
        refine ⟨t, ?_⟩
        rw [Expr_check_alias, ht]
        exact (congrArg (fun b => if b = true then _ else _) (star_CE c _ hv)).trans rfl
    obtain ⟨t, ht⟩ := this
    exact ⟨t :: ts, by rw [Expr_checks_cons, ht, hts]; rfl⟩

theorem each_ne {α β : Type} {R : α → β → Prop} {as : List α} {bs : List β} (h : Each R as bs) (hne : as ≠ []) : bs ≠ [] := by
  cases h with
  | nil => exact absurd rfl hne
  | cons _ _ => simp

theorem groups_check : ∀ {ps : List GroupPart} {gs : List Grp}, Each GroupRead ps gs → Grp.checks gs = .ok ()
  | _, _, .nil => rfl
  | _, _, .cons h hs => by
    obtain ⟨_, _, _, _, _, _, _, hc⟩ := grp_read h (after := []) rfl rfl rfl
    rw [Grp_checks_cons, hc]
    exact groups_check hs

theorem group_check {ps : List GroupPart} {gs : List Grp} (h : Each GroupRead ps gs) : GroupBy.checkOpt (groupOf gs) = .ok () := by
  have := groups_check h
  cases gs with
  | nil => rfl
  | cons e es => exact this

theorem from_check {o : Option FromText} {r : Option Rel} (h : FromRead o r) : Rel.checkOpt r = .ok () := by
  cases h with
  | none => rfl
  | some hx hj =>
    obtain ⟨c, _, _, _, x3, _⟩ := source_read (source_par hx)
    obtain ⟨c', _, _, _, j3, _⟩ := joins_read (joins_par hj) x3
    exact made_CR c' _ j3

theorem select_body {x : SelectText} {q : Query} (h : x.Means q) :
    ∃ ts c, LexAs x.text (kwT (c% "SELECT") :: ts) ∧
      (∀ Y, Hd tOrder Y → P (.qterm 2) (kwT (c% "SELECT") :: ts ++ Y) = some (c, Y)) ∧ c.conv = .ok (some q) := by
  obtain ⟨hne, hnd, es, fr, wh, gs, hv, wds, hes, hfr, hwh, hgs, hhv, hwd, rfl⟩ := h
  obtain ⟨qt, s1, s2, s3⟩ := select_read x.distinct
  obtain ⟨ci, t0, ti, i1, i0, i2, i3⟩ := items_read hne hes
  obtain ⟨cf, ⟨tf, f1, f2⟩, f3⟩ := part_from hfr
  obtain ⟨cw, ⟨tw, w1, w2⟩, w3⟩ := part_expr lexAs_where (fun _ => rfl) (after := tGroup) (by decide +kernel) (by decide +kernel)
    (by decide +kernel) hwh
  obtain ⟨cg, ⟨tg, g1, g2⟩, gs', g3, g4⟩ := part_group hgs
  obtain ⟨ch, ⟨th, h1, h2⟩, h3⟩ := part_expr lexAs_having (fun _ => rfl) (after := tWindow) (by decide +kernel) (by decide +kernel)
    (by decide +kernel) hhv
  obtain ⟨cd, ⟨td, d1, d2⟩, d3⟩ := part_window hwd
  have hl := s1.app (i1.app (f1.app (w1.app (g1.app (h1.app d1)))))
  refine ⟨_, .spec qt ci cf cw none cg ch cd, hl, fun Y hY => ?_, ?_⟩
  · obtain ⟨d4, d5⟩ := d2 _ hY
    obtain ⟨h4, h5⟩ := h2 _ d5
    obtain ⟨g4, g5⟩ := g2 _ h5
    obtain ⟨w4, w5⟩ := w2 _ g5
    obtain ⟨f4, f5⟩ := f2 _ w5
    have i4 := i2 _ f5
    have hq := s2 t0 (ti ++ (tf ++ (tw ++ (tg ++ (th ++ (td ++ Y)))))) i0
    have e : kwT (c% "SELECT") :: (qt.toList ++ (t0 :: ti ++ (tf ++ (tw ++ (tg ++ (th ++ td)))))) ++ Y =
        kwT (c% "SELECT") :: (qt.toList ++ t0 :: (ti ++ (tf ++ (tw ++ (tg ++ (th ++ (td ++ Y))))))) := by simp
    refine (congrArg (P (.qterm 2)) e).trans ?_
    rw [P_qterm]
    show pSelect P (qt.toList ++ t0 :: (ti ++ _)) = _
    rw [pSelect, hq]
    exact bind_s i4 (bind_s f4 (bind_s w4 (bind_s g4 (bind_s h4 (bind_s d4 rfl)))))
  · obtain ⟨tys, ht⟩ := items_check hes
    have hc : (Query.mk (.select es fr wh (groupOf gs) hv x.distinct wds) none none [] []).check = .ok (selectType tys) := by
      refine parts_check.2 ⟨rfl, rfl, ?_⟩
      rw [QBody_check_select]
      refine ebind ht (ebind (from_check hfr) (ebind (optText_check hwh) (ebind (group_check hgs) (ebind (optText_check hhv)
        (ebind (windows_check hwd) ?_)))))
      rw [if_neg]
      rw [List.isEmpty_iff]
      exact each_ne hes hne
    obtain ⟨rs, hrs, hf⟩ := bind_ok f3
    rw [CQT_conv_spec]
    refine ebind i3 (ebind hrs (ebind hf (ebind s3 (ebind w3 (ebind h3 (ebind g3 (ebind (a := false) rfl (ebind d3 ?_))))))))
    rw [g4, dictOf_nodup (by rw [windows_names hwd]; exact hnd), Query.build]
    rw [hc]; rfl

theorem table_read {x : Source} {t : TableRef} (h : BaseText (fun _ _ => False) x (.table t)) :
    ∃ ns ts, LexAs x.text ts ∧ (∀ Y, nextSym (c% ".") Y = false → pQName (ts ++ Y) = some (ns, Y)) ∧
      (identTexts ns >>= tableFromQualifiers) = .ok t ∧ t.check = .ok () := by
  cases h with
  | @table m hm =>
    refine ⟨[nameTok m], _, lexAs_quoted hm, fun Y hY => qname_one hY, ?_, rfl⟩
    show ((identText (nameTok m) >>= _) >>= _) = _
    rw [ident_quoted hm]; rfl
  | @inSchema s m hs hm =>
    refine ⟨[nameTok s, nameTok m], _, lexAs_dot hs (lexAs_quoted hm), fun Y hY => ?_, ?_, rfl⟩
    · show (pQName (nameTok m :: Y)).map _ = _
      rw [qname_one hY]; rfl
    · show ((identText (nameTok s) >>= fun a => (identText (nameTok m) >>= _) >>= _) >>= _) = _
      rw [ident_quoted hs, ident_quoted hm]
      exact ebind (a := [s, m]) rfl rfl
  | @inCatalog c s m hc hs hm hne =>
    refine ⟨[nameTok c, nameTok s, nameTok m], _, lexAs_dot hc (lexAs_dot hs (lexAs_quoted hm)), fun Y hY => ?_, ?_, ?_⟩
    · show ((pQName (nameTok m :: Y)).map _).map _ = _
      rw [qname_one hY]; rfl
    · have hi : identTexts [nameTok c, nameTok s, nameTok m] = .ok [c, s, m] := by
        show (identText (nameTok c) >>= fun a => (identText (nameTok s) >>= fun b => (identText (nameTok m) >>= _) >>= _) >>= _) = _
        rw [ident_quoted hc, ident_quoted hs, ident_quoted hm]; rfl
      refine ebind hi ?_
      cases s with
      | nil => exact absurd rfl hne
      | cons a s => cases c <;> rfl
    · cases s with
      | nil => exact absurd rfl hne
      | cons a s => cases c <;> rfl
  | joined h => exact h.elim

/-- How a query starts. -/
def tBody : List Tok := [kwT (c% "SELECT"), kwT (c% "TABLE"), kwT (c% "VALUES")]

theorem body_read {x : BodyText} {q : Query} (h : x.Means q) :
    ∃ t ts c, tBody.contains t = true ∧ LexAs x.text (t :: ts) ∧
      (∀ Y, Hd tOrder Y → P (.qterm 2) (t :: ts ++ Y) = some (c, Y)) ∧ c.conv = .ok (some q) := by
  cases h with
  | select h =>
    obtain ⟨ts, c, h1, h2, h3⟩ := select_body h
    exact ⟨_, ts, c, by decide +kernel, h1, h2, h3⟩
  | @table x t h =>
    obtain ⟨ns, ts, h1, h2, h3, h4⟩ := table_read h
    refine ⟨kwT (c% "TABLE"), ts, .table ns, by decide +kernel,
      (lexAs_word (c := 'T') (t := kwT (c% "TABLE")) (w := c% "ABLE") (fun _ => rfl) rfl).app h1, fun Y hY => ?_, ?_⟩
    · rw [P_qterm]
      show (pQName (ts ++ Y) >>= _) = _
      exact bind_s (h2 Y (hY.nextSym _ (by decide +kernel))) rfl
    · rw [CQT_conv_table]
      obtain ⟨is, hi, h3⟩ := bind_ok h3
      refine ebind hi (ebind h3 (ebind (a := Query.mk (.table t) none none [] []) ?_ rfl))
      rw [Query.build, show (Query.mk (.table t) none none [] []).check = .ok .unknown from
        ebind (a := ()) rfl (ebind (a := ()) rfl (ebind h4 rfl))]; rfl
  | @values ss es hne hs hc =>
    obtain ⟨cs, k1, k2, k3⟩ := each_read hs
    obtain ⟨ty, hty⟩ := hc
    refine ⟨kwT (c% "VALUES"), ptList [] (ss.map toks), .values cs, by decide +kernel,
      (lexAs_word (c := 'V') (t := kwT (c% "VALUES")) (w := c% "ALUES") (fun _ => rfl) rfl).app (lexAs_list k3), fun Y hY => ?_, ?_⟩
    · rw [P_qterm, List.cons_append, ptList_app]
      show (P .exprs (ptList Y (ss.map toks)) >>= _) = _
      exact bind_s (exprs_list (hY.stop (by decide +kernel) 0) (hY.nextSym _ (by decide +kernel)) (hY.symNone _ (by decide +kernel))
        (by simpa using hne) k1) rfl
    · rw [CQT_conv_values]
      refine ebind k2 ?_
      rw [Query.build, hty]; rfl

/-- The words of a set operation at a level. -/
structure SetWord (p : Nat) (w : Str) (k : SetKind) (d : Bool) (op : Tok) (q : Option Tok) : Prop where
  lex : LexAs w (op :: q.toList)
  isOp : op.isSetOp p = true
  quant : ∀ t Y, tBody.contains t = true → optTok Tok.isQuant (q.toList ++ t :: Y) = (q, t :: Y)
  kind : setKindOf op = .ok k
  all : quantOf true q = .ok d

theorem no_quant (t : Tok) (Y : List Tok) (h : tBody.contains t = true) : optTok Tok.isQuant (t :: Y) = (none, t :: Y) :=
  (Hd.cons h : Hd tBody _).optTok _ (by decide +kernel)

theorem inter_word {w : Str} {k : SetKind} {d : Bool} (h : (w, k, d) ∈ interTexts) :
    ∃ op q, SetWord 1 w k d op q ∧ tOrder.contains op = true := by
  have i : LexAs (c% " INTERSECT ") [kwT (c% "INTERSECT")] := lexAs_kw (w := c% "NTERSECT") (fun _ => rfl) rfl
  have al : LexAs (c% "ALL ") [kwT (c% "ALL")] := lexAs_word (w := c% "LL") (fun _ => rfl) rfl
  have di : LexAs (c% "DISTINCT ") [kwT (c% "DISTINCT")] := lexAs_word (w := c% "ISTINCT") (fun _ => rfl) rfl
  simp only [interTexts, List.mem_cons, List.not_mem_nil, or_false, Prod.mk.injEq] at h
  rcases h with ⟨rfl, rfl, rfl⟩ | ⟨rfl, rfl, rfl⟩ | ⟨rfl, rfl, rfl⟩
  · exact ⟨_, none, ⟨i, by decide +kernel, no_quant, rfl, rfl⟩, by decide +kernel⟩
  · exact ⟨_, some (kwT (c% "ALL")), ⟨i.app al, by decide +kernel, fun _ _ _ => rfl, rfl, rfl⟩, by decide +kernel⟩
  · exact ⟨_, some (kwT (c% "DISTINCT")), ⟨i.app di, by decide +kernel, fun _ _ _ => rfl, rfl, rfl⟩, by decide +kernel⟩

theorem union_word {w : Str} {k : SetKind} {d : Bool} (h : (w, k, d) ∈ unionTexts) :
    ∃ op q, SetWord 0 w k d op q ∧ uUnion.contains op = true := by
  have u : LexAs (c% " UNION ") [kwT (c% "UNION")] := lexAs_kw (w := c% "NION") (fun _ => rfl) rfl
  have x : LexAs (c% " EXCEPT ") [kwT (c% "EXCEPT")] := lexAs_kw (w := c% "XCEPT") (fun _ => rfl) rfl
  have al : LexAs (c% "ALL ") [kwT (c% "ALL")] := lexAs_word (w := c% "LL") (fun _ => rfl) rfl
  have di : LexAs (c% "DISTINCT ") [kwT (c% "DISTINCT")] := lexAs_word (w := c% "ISTINCT") (fun _ => rfl) rfl
  simp only [unionTexts, List.mem_cons, List.not_mem_nil, or_false, Prod.mk.injEq] at h
  rcases h with ⟨rfl, rfl, rfl⟩ | ⟨rfl, rfl, rfl⟩ | ⟨rfl, rfl, rfl⟩ | ⟨rfl, rfl, rfl⟩ | ⟨rfl, rfl, rfl⟩ | ⟨rfl, rfl, rfl⟩
  · exact ⟨_, none, ⟨u, by decide +kernel, no_quant, rfl, rfl⟩, by decide +kernel⟩
  · exact ⟨_, some (kwT (c% "ALL")), ⟨u.app al, by decide +kernel, fun _ _ _ => rfl, rfl, rfl⟩, by decide +kernel⟩
  · exact ⟨_, some (kwT (c% "DISTINCT")), ⟨u.app di, by decide +kernel, fun _ _ _ => rfl, rfl, rfl⟩, by decide +kernel⟩
  · exact ⟨_, none, ⟨x, by decide +kernel, no_quant, rfl, rfl⟩, by decide +kernel⟩
  · exact ⟨_, some (kwT (c% "ALL")), ⟨x.app al, by decide +kernel, fun _ _ _ => rfl, rfl, rfl⟩, by decide +kernel⟩
  · exact ⟨_, some (kwT (c% "DISTINCT")), ⟨x.app di, by decide +kernel, fun _ _ _ => rfl, rfl, rfl⟩, by decide +kernel⟩

/-- The text of an operand of the set operations of level `p`, before what `B` holds. -/
def Operand (p : Nat) (B : List Tok) (s : Str) (q : Query) : Prop :=
  ∃ t ts c, tBody.contains t = true ∧ LexAs s (t :: ts) ∧
    (∀ Y, Hd B Y → P (.qterm p) (t :: ts ++ Y) = some (c, Y)) ∧ c.conv = .ok (some q)

theorem chain_read {α : Type} {words : List (Str × SetKind × Bool)} {R : α → Query → Prop} {f : α → Str} {p : Nat} {A B : List Tok}
    (hAB : A.all B.contains = true) (hA : A.all (fun t => !t.isSetOp p) = true)
    (hw : ∀ w k d, (w, k, d) ∈ words → ∃ op q, SetWord p w k d op q ∧ B.contains op = true)
    (hR : ∀ x q, R x q → Operand (p + 1) B (f x) q) :
    ∀ {xs : List (Str × α)} {a q : Query}, Chain words R a xs q → ∀ {c : CQT}, c.conv = .ok (some a) →
    ∃ c' ts, LexAs (operandText f xs) ts ∧ (∀ Y, Hd A Y → P (.qloop p c) (ts ++ Y) = some (c', Y) ∧ Hd B (ts ++ Y)) ∧
      c'.conv = .ok (some q)
  | [], _, _, .nil, c, hc => by
    refine ⟨c, [], LexAs.nil, fun Y hY => ⟨?_, hY.sub hAB⟩, hc⟩
    show P (.qloop p c) Y = _
    rw [P_qloop, pQLoop]
    exact ite_f (hY.next _ hA) rfl
  | (w, x) :: xs, a, q, .cons (b := b) (k := k) (d := d) h1 h2 h3 h4, c, hc => by
    obtain ⟨op, qt, hW, hB⟩ := hw _ _ _ h1
    obtain ⟨t, ts, cb, r0, r1, r2, r3⟩ := hR _ _ h2
    have hs : (CQT.set op qt c cb).conv = .ok (some (.mk (.set k a b d) none none [] [])) := by
      rw [CQT_conv_set]
      refine ebind hc (ebind r3 (ebind hW.all (ebind hW.kind (ebind (a := a) rfl (ebind (a := b) rfl ?_)))))
      obtain ⟨ty, ht⟩ := h3
      rw [Query.build, ht]; rfl
    obtain ⟨c', us, k1, k2, k3⟩ := chain_read hAB hA hw hR h4 hs
    refine ⟨c', _, hW.lex.app (r1.app k1), fun Y hY => ⟨?_, Hd.cons hB⟩, k3⟩
    obtain ⟨k4, k5⟩ := k2 Y hY
    have e : (op :: qt.toList ++ (t :: ts ++ us)) ++ Y = op :: (qt.toList ++ t :: (ts ++ (us ++ Y))) := by simp
    refine (congrArg (P (.qloop p c)) e).trans ?_
    rw [P_qloop, pQLoop]
    refine ite_t (show op.isSetOp p = true from hW.isOp) ?_
    refine bind_s (a := (op, qt.toList ++ t :: (ts ++ (us ++ Y)))) ?_ ?_
    · rw [tokIf, if_pos hW.isOp]
    · dsimp only
      rw [hW.quant _ _ r0]
      exact bind_s (r2 _ k5) k4

theorem term_read {x : TermText} {q : Query} (h : x.Means q) : Operand 1 uUnion x.text q := by
  obtain ⟨a, ha, hch⟩ := h
  obtain ⟨t, ts, c, h0, h1, h2, h3⟩ := body_read ha
  obtain ⟨c', us, k1, k2, k3⟩ := chain_read (R := BodyText.Means) (f := BodyText.text) (A := uUnion) (B := tOrder) (p := 1) (by decide +kernel) (by decide +kernel) (fun _ _ _ => inter_word)
    (fun _ _ => body_read) hch h3
  refine ⟨t, ts ++ us, c', h0, h1.app k1, fun Y hY => ?_, k3⟩
  obtain ⟨k4, k5⟩ := k2 Y hY
  have e : t :: (ts ++ us) ++ Y = t :: ts ++ (us ++ Y) := by simp
  rw [e, P_qterm]
  exact bind_s (h2 _ k5) k4

theorem query_read {x : QueryText} {q : Query} (h : x.Means q) :
    ∃ t ts b, tBody.contains t = true ∧ LexAs x.text (t :: ts) ∧ P .qnw (t :: ts) = some (b, []) ∧ b.conv = .ok (some q) := by
  obtain ⟨a, b, ob, ha, hch, hob, rfl⟩ := h
  obtain ⟨t, ts, c, h0, h1, h2, h3⟩ := term_read ha
  obtain ⟨c', us, k1, k2, k3⟩ := chain_read (R := TermText.Means) (f := TermText.text) (A := uOrder) (B := uUnion) (p := 0) (by decide +kernel) (by decide +kernel) (fun _ _ _ => union_word)
    (fun _ _ => term_read) hch h3
  obtain ⟨co, ⟨to', o1, o2⟩, o3⟩ := part_order hob
  obtain ⟨cu, ⟨tu, u1, u2⟩, u3⟩ := part_offset x.offset
  obtain ⟨cl, ⟨tl, l1, l2⟩, l3⟩ := part_limit x.limit
  refine ⟨t, _, .mk c' co cu cl, h0, h1.app (k1.app (o1.app (u1.app l1))), ?_, ?_⟩
  · obtain ⟨l4, l5⟩ := l2 [] Hd.nil
    rw [List.append_nil] at l4 l5
    obtain ⟨u4, u5⟩ := u2 _ l5
    obtain ⟨o4, o5⟩ := o2 _ u5
    obtain ⟨k4, k5⟩ := k2 _ o5
    rw [P_qnw, pQnw]
    refine bind_s (a := (c', to' ++ (tu ++ tl))) ?_ (bind_s o4 (bind_s u4 (bind_s l4 rfl)))
    rw [P_qterm]
    exact bind_s (h2 _ k5) k4
  · rw [CQN_conv_mk]
    refine ebind k3 (ebind o3 ?_)
    refine ebind (a := some (.mk b none none ob [])) ?_ ?_
    · unfold orderQuery
      cases ob <;> rfl
    · exact ebind (u3 _ _ _ _) (l3 _ _ _ _)

theorem query_text {x : QueryText} {q : Query} (h : x.Means q) : Text x.text (.query q) := by
  obtain ⟨t, ts, b, h0, h1, h2, h3⟩ := query_read h
  have hq : P .query (toks x.text) = some (.mk false [] b, []) := by
    rw [h1.all, P_query, pQuery]
    refine bind_s (a := ((false, []), t :: ts)) ?_ ?_
    · rw [optWith, (Hd.cons h0 : Hd tBody _).kwNone _ (by decide +kernel)]
    exact bind_s h2 rfl
  refine .query ⟨_, hq⟩ ?_
  unfold queryFromSql
  rw [hq]
  show CQ.conv _ = _
  rw [CQ_conv_mk]
  refine ebind h3 ?_
  rfl

/-! ## WITH -/

theorem qnw_comma {ts : List Tok} {x : CQN × List Tok} (h : P .qnw ts = some x) : sym (c% ",") ts = none := by
  cases ts with
  | nil => rfl
  | cons t ts =>
    cases ht : t.isSym (c% ",") with
    | false => rw [sym, ht]; rfl
    | true =>
      exfalso
      rw [isSym_eq ht] at h
      have h2 : P (.qterm 2) (symT (c% ",") :: ts) = none := by rw [P_qterm]; rfl
      have h1 : P (.qterm 1) (symT (c% ",") :: ts) = none := by
        rw [P_qterm]
        show (P (.qterm 2) _ >>= _) = _
        rw [h2]; rfl
      have h0 : P (.qterm 0) (symT (c% ",") :: ts) = none := by
        rw [P_qterm]
        show (P (.qterm 1) _ >>= _) = _
        rw [h1]; rfl
      rw [P_qnw, pQnw, h0] at h
      cases h

/-- A query without WITH is read by the rule for such queries. -/
theorem read_plain {s : Str} {b : QBody} {off lim : Option Int} {ob : List Ord} (h : Text s (.query (.mk b off lim ob []))) :
    ∃ c, P .qnw (toks s) = some (c, []) ∧ c.conv = .ok (some (.mk b off lim ob [])) ∧ clean false (toks s) = true := by
  cases h with
  | expr _ h => exact absurd rfl (h _)
  | query hw h =>
    obtain ⟨c, hc⟩ := hw
    have hcl := query_clean hc
    unfold queryFromSql at h
    rw [hc] at h
    rw [P_query, pQuery] at hc
    obtain ⟨⟨⟨rc, w⟩, ts⟩, h1, hc⟩ := Option.bind_eq_some_iff.1 hc
    obtain ⟨⟨b', ts'⟩, h2, hc⟩ := Option.bind_eq_some_iff.1 hc
    cases hc
    have h' : CQ.conv (.mk rc w b') = _ := h
    rw [CQ_conv_mk] at h'
    obtain ⟨x, hx, h'⟩ := bind_ok h'
    rw [optWith] at h1
    split at h1
    · cases h1
      have e : x = some (.mk b off lim ob []) := by cases h'; rfl
      exact ⟨b', h2, e ▸ hx, hcl⟩
    · exfalso
      obtain ⟨⟨w', ts''⟩, h3, h1⟩ := Option.bind_eq_some_iff.1 h1
      cases h1
      split at h'
      · cases h'
      · obtain ⟨ns, hns, h'⟩ := bind_ok h'
        have hne : ns ≠ [] := by
          rintro rfl
          rw [P_nameds, pSep] at h3
          obtain ⟨⟨⟨n, cols, q⟩, ts3⟩, _, h3⟩ := Option.bind_eq_some_iff.1 h3
          have : ∀ l, CNamed.convs (.mk n cols q :: l) ≠ .ok [] := by
            intro l hl
            rw [CNamed_convs_cons] at hl
            obtain ⟨_, _, hl⟩ := bind_ok hl
            obtain ⟨_, _, hl⟩ := bind_ok hl
            obtain ⟨_, _, hl⟩ := bind_ok hl
            obtain ⟨_, _, hl⟩ := bind_ok hl
            obtain ⟨_, _, hl⟩ := bind_ok hl
            cases hl
          split at h3
          · cases h3; exact this _ hns
          · obtain ⟨_, _, h3⟩ := Option.bind_eq_some_iff.1 h3
            cases h3; exact this _ hns
        unfold withQuery at h'
        rw [if_neg (by simpa using hne)] at h'
        obtain ⟨p, _, e⟩ := set_attr h'
        obtain ⟨a1, a2, a3, a4, a5⟩ := p
        cases e
        exact hne rfl

theorem cols_read {ns : List Str} (h : ∀ n ∈ ns, '"' ∉ n) :
    ∃ ts, LexAs (namedCols ns) ts ∧ (∀ Y, nextSym (c% "(") Y = false → optColumns (ts ++ Y) = some (ns.map nameTok, Y)) ∧
      identTexts (ns.map nameTok) = .ok ns := by
  cases ns with
  | nil =>
    refine ⟨[], LexAs.nil, fun Y hY => ?_, rfl⟩
    show optColumns Y = _
    rw [optColumns]
    exact ite_f hY rfl
  | cons n ns =>
    obtain ⟨us, u1, u2, u3⟩ := columns_read (ns := n :: ns) (by simp) h
    refine ⟨_, u1, fun Y _ => ?_, u3⟩
    rw [optColumns]
    exact ite_t rfl (u2 Y)

theorem named_read {p : NamedPart} {n : Named} (h : NamedText p n) :
    ∃ c ts, LexAs p.all (nameTok p.name :: ts) ∧ (∀ Y, pNamed P (nameTok p.name :: ts ++ Y) = some (c, Y)) ∧
      ∀ cs ns, CNamed.convs cs = .ok ns → CNamed.convs (c :: cs) = .ok (n :: ns) := by
  obtain ⟨hn, hcs, q, hq, rfl⟩ := h
  cases hq with
  | expr _ h => exact absurd rfl (h q)
  | query hw h =>
    obtain ⟨c, hc⟩ := hw
    obtain ⟨us, u1, u2, u3⟩ := cols_read hcs
    have hl := (lexAs_quoted hn).app (u1.app ((lexAs_kw (c := 'A') (w := c% "S") (t := kwT (c% "AS")) (fun _ => rfl) rfl).app
      (lexAs_par (query_clean hc))))
    rw [List.append_assoc] at hl
    refine ⟨.mk (nameTok p.name) (p.cols.map nameTok) c, us ++ ([kwT (c% "AS")] ++ pt (toks p.text) []), hl, fun Y => ?_, fun cs ns hns => ?_⟩
    · have e : nameTok p.name :: (us ++ ([kwT (c% "AS")] ++ pt (toks p.text) [])) ++ Y =
          nameTok p.name :: (us ++ (kwT (c% "AS") :: pt (toks p.text) Y)) := by
        show nameTok p.name :: ((us ++ (kwT (c% "AS") :: pt (toks p.text) [])) ++ Y) = _
        rw [List.append_assoc, List.cons_append, pt_app]; rfl
      rw [e, pNamed]
      refine bind_s (a := (nameTok p.name, us ++ (kwT (c% "AS") :: pt (toks p.text) Y))) rfl ?_
      refine bind_s (u2 _ rfl) ?_
      refine bind_s (a := pt (toks p.text) Y) rfl ?_
      refine bind_s (a := toks p.text ++ cl Y) rfl ?_
      exact bind_s (query_close (Y := Y) hc).2 rfl
    · rw [CNamed_convs_cons]
      unfold queryFromSql at h
      rw [hc] at h
      refine ebind u3 (ebind (show c.conv = _ from h) (ebind (a := q) rfl (ebind (ident_quoted hn) (ebind hns rfl))))

theorem nameds_read : ∀ {ps : List NamedPart} {ns : List Named}, ps ≠ [] → Each NamedText ps ns →
    ∃ cs t ts, LexAs (withText ps) (nameTok t :: ts) ∧ (∀ Y, sym (c% ",") Y = none → P .nameds (nameTok t :: ts ++ Y) = some (cs, Y)) ∧
      CNamed.convs cs = .ok ns ∧ ns ≠ []
  | [p], _, _, .cons h .nil => by
    obtain ⟨c, ts, h1, h2, h3⟩ := named_read h
    refine ⟨[c], p.name, ts, h1, fun Y hY => ?_, h3 [] [] rfl, by simp⟩
    rw [P_nameds, pSep]
    refine bind_s (h2 Y) ?_
    dsimp only
    rw [hY]
  | p :: p' :: ps, _, _, .cons h hs => by
    obtain ⟨c, ts, h1, h2, h3⟩ := named_read h
    obtain ⟨cs, t, us, k1, k2, k3, _⟩ := nameds_read (by simp) hs
    have hl := h1.app (lexAs_comma.app k1)
    have e : withText (p :: p' :: ps) = p.all ++ (c% ", " ++ withText (p' :: ps)) := rfl
    rw [← e] at hl
    refine ⟨c :: cs, p.name, _, hl, fun Y hY => ?_, h3 cs _ k3, by simp⟩
    have e2 : nameTok p.name :: (ts.append ([symT (c% ",")] ++ (nameTok t :: us))) ++ Y =
        nameTok p.name :: ts ++ (symT (c% ",") :: (nameTok t :: us ++ Y)) := by
      show nameTok p.name :: (ts ++ ([symT (c% ",")] ++ (nameTok t :: us))) ++ Y = _
      simp
    rw [e2, P_nameds, pSep]
    refine bind_s (h2 _) ?_
    exact bind_s (k2 Y hY) rfl

theorem lexAs_with : LexAs (c% "WITH ") [kwT (c% "WITH")] := lexAs_word (w := c% "ITH") (fun _ => rfl) rfl

theorem with_text {ps : List NamedPart} {ns : List Named} (hne : ps ≠ []) (h : Each NamedText ps ns) {s : Str} {b : QBody}
    {off lim : Option Int} {ob : List Ord} (hs : Text s (.query (.mk b off lim ob []))) :
    Text (c% "WITH " ++ (withText ps ++ (c% " " ++ s))) (.query (.mk b off lim ob ns)) := by
  obtain ⟨c, h1, h2, h3⟩ := read_plain hs
  obtain ⟨cs, t, ts, k1, k2, k3, k4⟩ := nameds_read hne h
  have hl : toks (c% "WITH " ++ (withText ps ++ (c% " " ++ s))) = kwT (c% "WITH") :: (nameTok t :: ts ++ toks s) := by
    rw [lexAs_with, k1]
    rw [show c% " " ++ s = ' ' :: s from rfl, toks_ws ' ' s rfl]
    rfl
  have hq : P .query (toks (c% "WITH " ++ (withText ps ++ (c% " " ++ s)))) = some (.mk false cs c, []) := by
    rw [hl, P_query, pQuery]
    refine bind_s (a := ((false, cs), toks s)) ?_ (bind_s h1 rfl)
    show (P .nameds (optKw (c% "RECURSIVE") (nameTok t :: (ts ++ toks s))).2 >>= _) = _
    rw [show optKw (c% "RECURSIVE") (nameTok t :: (ts ++ toks s)) = (false, nameTok t :: (ts ++ toks s)) from rfl]
    exact bind_s (k2 _ (qnw_comma h1)) rfl
  refine .query ⟨_, hq⟩ ?_
  unfold queryFromSql
  rw [hq]
  show CQ.conv _ = _
  rw [CQ_conv_mk]
  refine ebind h2 ?_
  show (CNamed.convs cs >>= _) = _
  refine ebind k3 ?_
  unfold withQuery
  rw [if_neg (by simpa using k4)]
  rfl

/-! ## Operands in parentheses -/

theorem sub_read {s : Str} {b : QBody} {off lim : Option Int} {ob : List Ord} (h : Text s (.query (.mk b off lim ob []))) :
    ∃ c, c.conv = .ok none ∧ clean false (toks s) = true ∧ ∀ Y, P (.qterm 2) (pt (toks s) Y) = some (c, Y) := by
  obtain ⟨c, h1, h2, h3⟩ := read_plain h
  refine ⟨.sub c, ?_, h3, fun Y => ?_⟩
  · rw [CQT_conv_sub]
    exact ebind h2 rfl
  · rw [P_qterm]
    show (P .qnw (toks s ++ cl Y) >>= _) = _
    exact bind_s (P_ext Y _ _ _ h1).2 rfl

theorem sub_term {ts Y : List Tok} {c : CQT} (h : P (.qterm 2) ts = some (c, Y)) (hY : Hd tUnion Y) : P (.qterm 1) ts = some (c, Y) := by
  rw [P_qterm]
  refine bind_s h ?_
  rw [P_qloop, pQLoop]
  exact ite_f (hY.next _ (by decide +kernel)) rfl

theorem union_subs {s t : Str} {b1 b2 : QBody} {f1 l1 f2 l2 : Option Int} {o1 o2 : List Ord} (h1 : Text s (.query (.mk b1 f1 l1 o1 [])))
    (h2 : Text t (.query (.mk b2 f2 l2 o2 []))) : queryFromSql (par s ++ (c% " UNION " ++ par t)) = .error .attributeError := by
  obtain ⟨c, c1, c2, c3⟩ := sub_read h1
  obtain ⟨d, d1, d2, d3⟩ := sub_read h2
  have u : LexAs (c% " UNION ") [kwT (c% "UNION")] := lexAs_kw (w := c% "NION") (fun _ => rfl) rfl
  have hl := ((lexAs_par c2).app (u.app (lexAs_par d2))).all
  rw [pt_app] at hl
  have h0 : P (.qterm 0) (pt (toks s) (kwT (c% "UNION") :: pt (toks t) [])) = some (.set (kwT (c% "UNION")) none c d, []) := by
    rw [P_qterm]
    refine bind_s (sub_term (c3 _) (Hd.cons (by decide +kernel))) ?_
    rw [P_qloop, pQLoop]
    refine ite_t rfl ?_
    refine bind_s (a := (kwT (c% "UNION"), pt (toks t) [])) rfl ?_
    refine bind_s (sub_term (d3 _) Hd.nil) ?_
    rw [P_qloop]; rfl
  have hq : P .query (toks (par s ++ (c% " UNION " ++ par t))) = some (.mk false [] (.mk (.set (kwT (c% "UNION")) none c d) [] none .none), []) := by
    rw [hl, P_query, pQuery]
    refine bind_s (a := ((false, []), pt (toks s) (kwT (c% "UNION") :: pt (toks t) []))) rfl ?_
    refine bind_s (a := (.mk (.set (kwT (c% "UNION")) none c d) [] none .none, [])) ?_ rfl
    rw [P_qnw, pQnw]
    exact bind_s h0 rfl
  unfold queryFromSql
  rw [hq]
  show CQ.conv _ = _
  rw [CQ_conv_mk, CQN_conv_mk, CQT_conv_set, c1, d1]
  rfl

end Treeno
