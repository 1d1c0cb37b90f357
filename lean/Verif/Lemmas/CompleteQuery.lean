import Verif.Lemmas.CompleteMore
/-!
# Plain parse trees are read back: queries and relations
-/
set_option linter.unusedSimpArgs false
set_option linter.unusedVariables false
namespace Treeno
open Spec

/-! ## What follows the parts of a query -/

def finHd : List Tok := [symT (c% ")")]
def tailHd : List Tok := [kwT (c% "ORDER"), kwT (c% "OFFSET"), kwT (c% "LIMIT"), kwT (c% "FETCH"), symT (c% ")")]
/-- What may follow a query term. -/
def setHd : List Tok := kwT (c% "UNION") :: kwT (c% "EXCEPT") :: kwT (c% "INTERSECT") :: tailHd
def winHd : List Tok := kwT (c% "WINDOW") :: setHd
def havHd : List Tok := kwT (c% "HAVING") :: winHd
def grpHd : List Tok := kwT (c% "GROUP") :: havHd
def whereHd : List Tok := kwT (c% "WHERE") :: grpHd
def fromHd : List Tok := kwT (c% "FROM") :: whereHd
def joinHd : List Tok :=
  [kwT (c% "CROSS"), kwT (c% "NATURAL"), kwT (c% "JOIN"), kwT (c% "INNER"), kwT (c% "LEFT"), kwT (c% "RIGHT"), kwT (c% "FULL")]
/-- What ends a relation. -/
def relEnd : List Tok := symT (c% ",") :: kwT (c% "ON") :: kwT (c% "USING") :: whereHd
/-- What may follow a relation. -/
def relHd : List Tok := joinHd ++ relEnd

def QGood (q : CQ) : Prop := ∀ rest, Hd finHd rest → P .query (q.yield ++ rest) = some (q, rest)
def QNGood (q : CQN) : Prop := ∀ rest, Hd finHd rest → P .qnw (q.yield ++ rest) = some (q, rest)
/-- No set operation above the level comes next. -/
def NoHigher (p : Nat) (rest : List Tok) : Prop := ∀ p', p < p' → nextIs (Tok.isSetOp p') rest = false
/-- What is read at a level once a term of that level has been read. -/
noncomputable def afterTerm (p : Nat) (q : CQT) (rest : List Tok) : Option (CQT × List Tok) :=
  if p < 2 then P (.qloop p q) rest else some (q, rest)
def QTGood (q : CQT) : Prop := ∀ p, p ≤ q.lvl → ∀ rest, Hd setHd rest → NoHigher p rest →
  P (.qterm p) (q.yield ++ rest) = afterTerm p q rest

theorem sub_ok {q : CQ} (h : QGood q) (rest : List Tok) : pSub P (q.yield ++ symT (c% ")") :: rest) = some (q, rest) := by
  rw [pSub]
  refine bind_s (h _ (Hd.cons (by decide +kernel))) ?_
  exact bind_s (sym_same _ _) rfl

/-! ## Select items -/

theorem item_yields : ∀ es : List CItem, CItem.yields es = es.map CItem.yield
  | [] => rfl
  | e :: es => by rw [CItem_yields_cons, item_yields es]; rfl

def ItemGood (i : CItem) : Prop := ∀ rest, Hd (symT (c% ",") :: fromHd) rest → pItem P (i.yield ++ rest) = some (i, rest)

theorem word_alias {t : Tok} (h : Word t) : t.isAlias = true := by
  rw [Tok.isAlias, word_isIdent h, word_kwOf h [c% "LIMIT", c% "OFFSET", c% "FETCH", c% "WINDOW", c% "TABLESAMPLE"] (by decide +kernel)]
  rfl

theorem optAlias_ok {b : Bool} {a : Option Tok} (ha : Opt Word a) (hb : b = true → a.isSome) {rest : List Tok}
    (hr : kw (c% "AS") rest = none) (hr2 : optTok Tok.isAlias rest = (none, rest)) :
    optAlias (aliasPart b a ++ rest) = some ((b, a), rest) := by
  cases b with
  | true =>
    cases a with
    | none => simp at hb
    | some t =>
      have := word_isIdent (ha t rfl)
      show optAlias (kwT (c% "AS") :: t :: rest) = _
      rw [optAlias, kw_same _ _ (by decide +kernel)]
      refine bind_s (a := (t, rest)) ?_ rfl
      simp [pIdent, this]
  | false =>
    show optAlias (a.toList ++ rest) = _
    have h1 : kw (c% "AS") (a.toList ++ rest) = none := by
      cases a with
      | none => exact hr
      | some t => simp [kw, word_kw (ha t rfl) (c% "AS") (by decide +kernel)]
    rw [optAlias, h1]
    simp only [optTok_ok (p := Tok.isAlias) (fun t ht => word_alias (ha t ht)) hr2]

theorem word_frank {t : Tok} (h : Word t) (ht : NotTo t) : t.frank = none := by
  rcases ident_kind h.1 with hk | hk | hk | hk | hk <;> rw [Tok.frank, hk]
  show kwRank (upper t.text) = none
  have h1 := word_kwOf h [c% "OR", c% "AND", c% "NOT", c% "BETWEEN", c% "IN", c% "LIKE", c% "IS", c% "ESCAPE", c% "FILTER",
    c% "IGNORE", c% "RESPECT", c% "OVER", c% "AT", c% "UESCAPE"] (by decide +kernel)
  simp only [Tok.isKwOf, hk, beq_self_eq_true, Bool.true_and, List.contains_eq_mem, decide_eq_false_iff_not,
    List.mem_cons, List.not_mem_nil, or_false, not_or] at h1
  obtain ⟨a, b, c, d, e, f, g, i, j, k, l, m, n, o⟩ := h1
  have q := ht hk
  simp [kwRank, a, b, c, d, e, f, g, i, j, k, l, m, n, o, q]

theorem alias_stop {b : Bool} {a : Option Tok} (ha : Opt Word a) (ho : b = false → Opt NotTo a) {rest : List Tok} (hs : ∀ p, Stop p rest) (p : Nat) :
    Stop p (aliasPart b a ++ rest) := by
  cases b with
  | true => exact Stop.free (by decide +kernel)
  | false =>
    show Stop p (a.toList ++ rest)
    cases a with
    | none => exact hs p
    | some t => exact Stop.free (word_frank (ha t rfl) (ho rfl t rfl))

theorem item_expr {e : CE} {b : Bool} {a : Option Tok} (hp : e.Plain) (he : Good e) (ha : Opt Word a) (hb : b = true → a.isSome)
    (ho : b = false → Opt NotTo a) : ItemGood (.expr e b a) := by
  intro rest hr
  have hst := alias_stop (b := b) ha ho (hr.stop (by decide +kernel))
  rw [CItem_yield_expr, List.append_assoc, pItem,
    (CE.start e hp _ ((hst 8).star (by omega))).heads.notStar]
  refine bind_s (he.full 0 (by omega) _ (hst 0)) ?_
  refine ite_f ((hst 8).not2Sym (k := 8) (by decide +kernel) (by omega) _) ?_
  exact bind_s (optAlias_ok ha hb (hr.kwNone _ (by decide +kernel)) (hr.optTok _ (by decide +kernel))) rfl

theorem item_all : ItemGood .all := by
  intro rest hr
  rw [CItem_yield_all]
  rfl

theorem isPrimary_of {e : CE} (h : 8 ≤ e.rank) : e.isPrimary = true := by
  cases e <;> first
    | rfl
    | (simp [CE.rank, CE.lvl] at h; done)
    | (have := Nat.le_trans h (rank_le_lvl _); rw [arith_lvl] at this; split at this <;> omega)

theorem item_allOf {e : CE} {cols : List Tok} (hp : e.Plain) (he : Good e) (hk : 8 ≤ e.rank) (hc : Words cols) :
    ItemGood (.allOf e cols) := by
  intro rest hr
  generalize hT : flag (!cols.isEmpty) [kwT (c% "AS")] ++ columns cols ++ rest = T
  have hy : (CItem.allOf e cols).yield ++ rest = e.yield ++ symT (c% ".") :: symT (c% "*") :: T := by
    rw [CItem_yield_allOf, ← hT]; simp
  rw [hy]
  generalize hR : symT (c% ".") :: symT (c% "*") :: T = R
  have hl := rank_le_lvl e
  have hst := CE.start e hp [] rfl
  obtain ⟨t, r, ht, _⟩ := hst.heads.first
  rw [List.append_nil] at hst ht
  have hsg : signNext (e.yield ++ R) = false := by
    have := hst.sgn (by omega)
    rw [ht] at this ⊢
    cases r with
    | nil =>
      simp only [signNext, nextIs, Bool.not_false, Bool.and_true, Bool.or_eq_false_iff] at this
      show (t.isSym _ || (t.isSym _ && _)) = false
      rw [this.1, this.2]; rfl
    | cons u r => exact this
  have hnot : nextKw (c% "NOT") (e.yield ++ R) = false := by
    have := hst.notK (by omega)
    rw [ht] at this ⊢
    exact this
  have hstar : sym (c% "*") (e.yield ++ R) = none := (hst.heads.append R).notStar
  have h8 : P (.lv 8) (e.yield ++ R) = some (e, R) := by
    rw [he.prim hk R (by rw [← hR]; exact Stop.lt (k := 8) (by decide +kernel) (by omega)) (fun _ => by rw [← hR]; rfl),
      P_loop, pLoop, pPostfix]
    refine ite_f (by rw [← hR]; rfl) (ite_f (by rw [← hR]; rfl) rfl)
  have h7 : P (.lv 7) (e.yield ++ R) = some (e, R) := by
    rw [P_lv, pLevel, if_neg (by rw [hsg]; simp), pOperand]
    refine bind_s h8 ?_
    rw [P_loop, pLoop, pAt]
    exact ite_f (by rw [← hR]; rfl) rfl
  have st : ∀ {p}, (isBin p ∨ p = 3) → P (.loop p e) R = some (e, R) := by
    intro p hp'
    rw [← hR]
    rcases hp' with hb | rfl
    · rw [loop_bin p hb, pBinLoop]
      rcases hb with rfl | rfl | rfl | rfl | rfl <;> rfl
    · rw [P_loop, pLoop, pPredicate]; rfl
  have down : ∀ {p}, (p = 3 ∨ isBin p) → P (.lv (p + 1)) (e.yield ++ R) = some (e, R) → P (.lv p) (e.yield ++ R) = some (e, R) := by
    intro p hb h
    rw [lv_operand p hb, pOperand]
    exact bind_s h (st hb.symm)
  have h6 := down (p := 6) (.inr (by unfold isBin; omega)) h7
  have h5 := down (p := 5) (.inr (by unfold isBin; omega)) h6
  have h4 := down (p := 4) (.inr (by unfold isBin; omega)) h5
  have h3 := down (p := 3) (.inl rfl) h4
  have h2 : P (.lv 2) (e.yield ++ R) = some (e, R) := by
    rw [P_lv, pLevel, if_neg (by rw [hnot]; simp), h3]
  have h1 := down (p := 1) (.inr (by unfold isBin; omega)) h2
  have h0 := down (p := 0) (.inr (by unfold isBin; omega)) h1
  rw [pItem, hstar]
  refine bind_s h0 ?_
  rw [← hR]
  refine ite_t rfl (ite_t (isPrimary_of hk) ?_)
  show (optAsColumns T >>= _) = _
  refine bind_s (a := (cols, rest)) ?_ rfl
  rw [← hT]
  cases cols with
  | nil =>
    show optAsColumns rest = _
    rw [optAsColumns, hr.kwNone _ (by decide +kernel)]
  | cons c cs =>
    show optAsColumns (kwT (c% "AS") :: (columns (c :: cs) ++ rest)) = _
    rw [optAsColumns, kw_same _ _ (by decide +kernel)]
    exact pColumns_ok (by simp) hc

theorem items_ok {is : List CItem} (hne : is ≠ []) (h : ∀ i ∈ is, ItemGood i) {rest : List Tok} (hr : Hd fromHd rest) :
    P .items (commas (CItem.yields is) ++ rest) = some (is, rest) := by
  rw [item_yields]
  exact sep_ok P_items CItem.yield (Hd (symT (c% ",") :: fromHd)) (fun ts => Hd.cons (by decide +kernel)) is hne
    h rest (hr.sub (by decide +kernel)) (hr.symNone _ (by decide +kernel))

/-- The first token of the items. -/
theorem item_heads {i : CItem} (hp : i.Plain) {rest : List Tok} (hr : dotStar rest = false) :
    optTok Tok.isQuant (i.yield ++ rest) = (none, i.yield ++ rest) := by
  cases i with
  | expr e b a =>
    rw [CItem_Plain_expr] at hp
    rw [CItem_yield_expr, List.append_assoc]
    refine (CE.start e hp.1 _ ?_).heads.optQuant
    cases b with
    | true => rfl
    | false =>
      show dotStar (a.toList ++ rest) = false
      cases a with
      | none => exact hr
      | some t => exact dotStar_of (word_sym (hp.2.1 t rfl) _)
  | allOf e cols =>
    rw [CItem_Plain_allOf] at hp
    have h := (CE.start e hp.1 [] rfl).heads
    rw [List.append_nil] at h
    rw [CItem_yield_allOf, List.append_assoc]
    exact (h.append _).optQuant
  | all => rw [CItem_yield_all]; rfl

/-! ## Grouping -/

def GrpHd : List Tok := symT (c% ",") :: havHd

theorem set_yields : ∀ es : List CSet, CSet.yields es = es.map CSet.yield
  | [] => rfl
  | e :: es => by rw [CSet_yields_cons, set_yields es]; rfl

theorem grp_yields : ∀ es : List CGrp, CGrp.yields es = es.map CGrp.yield
  | [] => rfl
  | e :: es => by rw [CGrp_yields_cons, grp_yields es]; rfl

def SetGood (s : CSet) : Prop := ∀ rest, Hd GrpHd rest → pSet P (s.yield ++ rest) = some (s, rest)
def GrpGood (s : CGrp) : Prop := ∀ rest, Hd GrpHd rest → pGrp P (s.yield ++ rest) = some (s, rest)

theorem set_paren {es : List CE} (hp : CE.Plains es) (h : ∀ e ∈ es, Good e) : SetGood (.paren es) := by
  intro rest hr
  rw [CSet_yield_paren, inParens, List.cons_append, List.append_assoc, pSet]
  refine ite_t ?_ ?_
  · show (true && (afterClose _ (commas (CE.yields es) ++ symT (c% ")") :: rest) &&
      !inStart (commas (CE.yields es) ++ symT (c% ")") :: rest))) = true
    have hi : inStart (commas (CE.yields es) ++ symT (c% ")") :: rest) = false := by
      by_cases hne : es = []
      · rw [hne]; rfl
      · exact exprs_notIn hne hp rest
    rw [hi, afterClose, Bal.commas (CE.bals es hp), scan_rpar0]
    show (true && (!nextIs (fun t => t.rank.isSome) rest && true)) = true
    rw [hr.next _ (by decide +kernel)]
    rfl
  · exact bind_s (args_ok hp h rest) rfl

theorem set_expr {e : CE} (hp : e.Plain) (h : Good e) (hn : e.isSet = false) : SetGood (.expr e) := by
  intro rest hr
  rw [CSet_yield_expr, pSet]
  refine ite_f ?_ (bind_s (h.full 0 (by omega) _ (hr.stop (by decide +kernel) 0)) rfl)
  by_cases hs : e.isPar = false
  · have := CE.opened e hp rest fun h => by rw [hs] at h; cases h
    rw [Opened] at this
    rw [setEnd, ← Bool.and_assoc, this]; rfl
  · cases e with
    | paren es => cases hn
    | row es => cases hn
    | sub q =>
      rw [CE_Plain_sub] at hp
      have hi := in_start hp hn rest
      rw [CE_yield_sub, inParens, List.cons_append, List.append_assoc, List.cons_append, List.nil_append, List.drop_one, List.tail_cons,
        hi, Bool.not_true, Bool.and_false, Bool.and_false]
    | _ => exact absurd rfl hs

theorem sets_ok {es : List CSet} (hne : es ≠ []) (h : ∀ i ∈ es, SetGood i) (rest : List Tok) :
    P .sets (commas (CSet.yields es) ++ symT (c% ")") :: rest) = some (es, symT (c% ")") :: rest) := by
  rw [set_yields]
  exact sep_ok P_sets CSet.yield (Hd GrpHd) (fun ts => Hd.cons (by decide +kernel)) es hne
    h _ (Hd.cons (by decide +kernel)) rfl

theorem grp_rollup {es : List CE} (hp : CE.Plains es) (h : ∀ e ∈ es, Good e) : GrpGood (.rollup es) := by
  intro rest hr
  rw [CGrp_yield_rollup, inParens, List.cons_append, List.cons_append, List.append_assoc]
  exact ite_t rfl (bind_s (args_ok hp h rest) rfl)

theorem grp_cube {es : List CE} (hp : CE.Plains es) (h : ∀ e ∈ es, Good e) : GrpGood (.cube es) := by
  intro rest hr
  rw [CGrp_yield_cube, inParens, List.cons_append, List.cons_append, List.append_assoc]
  exact ite_f rfl (ite_t rfl (bind_s (args_ok hp h rest) rfl))

theorem grp_sets {es : List CSet} (hne : es ≠ []) (h : ∀ e ∈ es, SetGood e) : GrpGood (.sets es) := by
  intro rest hr
  rw [CGrp_yield_sets, inParens, List.cons_append, List.cons_append, List.cons_append, List.append_assoc]
  refine ite_f rfl (ite_f rfl (ite_t rfl ?_))
  refine bind_s (sym_same _ _) ?_
  refine bind_s (sets_ok hne h rest) ?_
  exact bind_s (sym_same _ _) rfl

theorem grp_single {s : CSet} (hp : s.Plain) (h : SetGood s) : GrpGood (.single s) := by
  intro rest hr
  rw [CGrp_yield_single]
  have hn : ∀ k g, [k].all badStart.contains = true → next2 (Tok.isKw k) g (s.yield ++ rest) = false := by
    intro k g hk
    cases s with
    | paren es =>
      rw [CSet_yield_paren, inParens, List.cons_append]
      cases commas (CE.yields es) ++ [symT (c% ")")] ++ rest <;> rfl
    | expr e =>
      rw [CSet_Plain_expr] at hp
      rw [CSet_yield_expr]
      exact (CE.start e hp.1 rest (hr.star (by decide +kernel))).heads.not2 _ _ hk
  have hs : next2 (Tok.isKw (c% "GROUPING")) (Tok.isKw (c% "SETS")) (s.yield ++ rest) = false := by
    cases s with
    | paren es =>
      rw [CSet_yield_paren, inParens, List.cons_append]
      cases commas (CE.yields es) ++ [symT (c% ")")] ++ rest <;> rfl
    | expr e =>
      rw [CSet_Plain_expr] at hp
      rw [CSet_yield_expr]
      exact (CE.start e hp.1 rest (hr.star (by decide +kernel))).heads.notSets
  refine ite_f (hn _ _ (by decide +kernel)) (ite_f (hn _ _ (by decide +kernel)) (ite_f hs ?_))
  exact bind_s (h rest hr) rfl

theorem grp_quant {g : CGrp} (hp : g.Plain) {rest : List Tok} (hr : dotStar rest = false) :
    optTok Tok.isQuant (g.yield ++ rest) = (none, g.yield ++ rest) := by
  cases g with
  | single s =>
    rw [CGrp_yield_single]
    cases s with
    | paren es => rw [CSet_yield_paren]; rfl
    | expr e =>
      rw [CGrp_Plain_single, CSet_Plain_expr] at hp
      rw [CSet_yield_expr]
      exact (CE.start e hp.1 rest hr).heads.optQuant
  | rollup es => rw [CGrp_yield_rollup]; rfl
  | cube es => rw [CGrp_yield_cube]; rfl
  | sets es => rw [CGrp_yield_sets]; rfl

theorem optGroup_ok {q : Option Tok} {gs : List CGrp} (hq : Opt (KwIn [c% "DISTINCT", c% "ALL"]) q) (hqs : q.isSome → gs ≠ [])
    (hp : CGrp.Plains gs) (h : ∀ g ∈ gs, GrpGood g) {rest : List Tok} (hr : Hd havHd rest) :
    optGroup P (clause (kwT (c% "GROUP") :: kwT (c% "BY") :: q.toList) (CGrp.yields gs) ++ rest) = some ((q, gs), rest) := by
  cases gs with
  | nil =>
    rw [CGrp_yields_nil]
    have hqn : q = none := by
      cases q with
      | none => rfl
      | some x => exact absurd rfl (hqs rfl)
    subst hqn
    show optGroup P rest = _
    rw [optGroup, hr.kwNone _ (by decide +kernel)]
  | cons g gs =>
    have hy : clause (kwT (c% "GROUP") :: kwT (c% "BY") :: q.toList) (CGrp.yields (g :: gs)) ++ rest =
        kwT (c% "GROUP") :: kwT (c% "BY") :: (q.toList ++ (commas (CGrp.yields (g :: gs)) ++ rest)) := by
      rw [CGrp_yields_cons]; simp [clause]
    rw [hy, optGroup, kw_same _ _ (by decide +kernel)]
    refine bind_s (kw_same _ _ (by decide +kernel)) ?_
    have hqt : optTok Tok.isQuant (commas (CGrp.yields (g :: gs)) ++ rest) = (none, commas (CGrp.yields (g :: gs)) ++ rest) := by
      rw [CGrp_yields_cons]
      obtain ⟨r', he, hd⟩ := nextDot_sepTail (s := symT (c% ",")) rfl (hr.star (by decide +kernel)) (x := g.yield) (xs := CGrp.yields gs)
      rw [commas, he]
      rw [CGrp_Plains_cons] at hp
      exact grp_quant hp.1 hd
    simp only [optQuant_ok hq hqt]
    refine bind_s (a := (g :: gs, rest)) ?_ rfl
    rw [grp_yields]
    exact sep_ok P_grps CGrp.yield (Hd GrpHd) (fun ts => Hd.cons (by decide +kernel)) _ (by simp)
      h rest (hr.sub (by decide +kernel)) (hr.symNone _ (by decide +kernel))

/-! ## Window definitions -/

def yWinDef : CWinDef → List Tok
  | .mk n w => n :: kwT (c% "AS") :: w.yield

theorem wdef_yields : ∀ es : List CWinDef, CWinDef.yields es = es.map yWinDef
  | [] => rfl
  | .mk n w :: es => by rw [CWinDef_yields_cons, wdef_yields es]; rfl

def WDefGood (d : CWinDef) : Prop := ∀ rest, pWinDef P (yWinDef d ++ rest) = some (d, rest)

theorem wdef_good {n : Tok} {w : CWin} (hn : Word n) (hs : w.isSpec) (h : WinGood w) : WDefGood (.mk n w) := by
  intro rest
  cases w with
  | ref t => exact hs.elim
  | spec p ps ob f =>
    have h1 := h rest
    rw [yWinDef, CWin_yield_spec, inParens] at *
    rw [pWinDef]
    refine bind_s (a := (n, _)) (by simp only [List.cons_append, pIdent, word_isIdent hn, if_pos]; rfl) ?_
    refine bind_s (kw_same _ _ (by decide +kernel)) ?_
    refine bind_s (sym_same _ _) ?_
    have h2 := h1
    rw [optOver] at h2
    have h3 : (if next2 (Tok.isKw (c% "OVER")) (Tok.isSym (c% "(")) (kwT (c% "OVER") ::
        (symT (c% "(") :: (p.toList ++ (clause [kwT (c% "PARTITION"), kwT (c% "BY")] (CE.yields ps) ++ (orderPart (CSort.yields ob) ++ f.yield)) ++ [symT (c% ")")]) ++ rest)) = true then
          (P .win (p.toList ++ (clause [kwT (c% "PARTITION"), kwT (c% "BY")] (CE.yields ps) ++ (orderPart (CSort.yields ob) ++ f.yield)) ++ [symT (c% ")")] ++ rest)).bind
            (fun p => some (some p.1, p.2)) else none) = some (some (.spec p ps ob f), rest) := by
      rw [if_pos (by rfl)]
      rw [if_pos (by rfl)] at h2
      exact h2
    rw [if_pos (by rfl)] at h3
    cases hw : P .win (p.toList ++ (clause [kwT (c% "PARTITION"), kwT (c% "BY")] (CE.yields ps) ++ (orderPart (CSort.yields ob) ++ f.yield)) ++ [symT (c% ")")] ++ rest) with
    | none => rw [hw] at h3; cases h3
    | some x =>
      rw [hw] at h3
      obtain ⟨x1, x2⟩ := x
      cases h3
      exact bind_s rfl rfl

theorem optWindow_ok {ws : List CWinDef} (h : ∀ w ∈ ws, WDefGood w) {rest : List Tok} (hr : Hd setHd rest) :
    optWindow P (clause [kwT (c% "WINDOW")] (CWinDef.yields ws) ++ rest) = some (ws, rest) := by
  cases ws with
  | nil =>
    rw [CWinDef_yields_nil]
    show optWindow P rest = _
    rw [optWindow, hr.kwNone _ (by decide +kernel)]
  | cons w ws =>
    rw [wdef_yields]
    show optWindow P (kwT (c% "WINDOW") :: (commas ((w :: ws).map yWinDef) ++ rest)) = _
    rw [optWindow, kw_same _ _ (by decide +kernel)]
    exact sep_ok P_wdefs yWinDef (fun _ => True) (fun ts => trivial) _ (by simp)
      (fun d hd rest _ => h d hd rest) rest trivial (hr.symNone _ (by decide +kernel))

/-! ## Relations -/

theorem rel_yields : ∀ es : List CR, CR.yields es = es.map CR.yield
  | [] => rfl
  | e :: es => by rw [CR_yields_cons, rel_yields es]; rfl

/-- What may follow a `relationPrimary`. -/
def PrimEnd (rest : List Tok) : Prop :=
  nextSym (c% ".") rest = false ∧ next2 (Tok.isKw (c% "WITH")) (Tok.isKw (c% "ORDINALITY")) rest = false

structure RGood (r : CR) : Prop where
  rel : ∀ rest, Hd relHd rest → P .rel (r.yield ++ rest) = P (.relLoop r) rest
  sampled : 1 ≤ r.lvl → ∀ rest, Hd relHd rest → pSampled P (r.yield ++ rest) = some (r, rest)
  aliased : 2 ≤ r.lvl → ∀ rest, Hd (kwT (c% "TABLESAMPLE") :: relHd) rest → pAliased P (r.yield ++ rest) = some (r, rest)
  primary : 3 ≤ r.lvl → ∀ rest, PrimEnd rest → pRelPrimary P (r.yield ++ rest) = some (r, rest)

theorem RGood.ofSampled {r : CR} (h : r.lvl = 1) (hs : ∀ rest, Hd relHd rest → pSampled P (r.yield ++ rest) = some (r, rest)) :
    RGood r where
  rel rest hr := by
    rw [P_rel]
    exact bind_s (hs rest hr) rfl
  sampled _ := hs
  aliased h2 := by omega
  primary h2 := by omega

theorem sampled_of_aliased {r : CR} (hs : ∀ rest, Hd (kwT (c% "TABLESAMPLE") :: relHd) rest → pAliased P (r.yield ++ rest) = some (r, rest)) :
    ∀ rest, Hd relHd rest → pSampled P (r.yield ++ rest) = some (r, rest) := by
  intro rest hr
  rw [pSampled]
  refine bind_s (hs rest (hr.sub (by decide +kernel))) ?_
  show (match kw (c% "TABLESAMPLE") rest with | none => _ | some ts => _) = _
  rw [hr.kwNone _ (by decide +kernel)]

theorem RGood.ofAliased {r : CR} (h : r.lvl = 2) (hs : ∀ rest, Hd (kwT (c% "TABLESAMPLE") :: relHd) rest → pAliased P (r.yield ++ rest) = some (r, rest)) :
    RGood r where
  rel rest hr := by
    rw [P_rel]
    exact bind_s (sampled_of_aliased hs rest hr) rfl
  sampled _ := sampled_of_aliased hs
  aliased _ := hs
  primary h2 := by omega

theorem Hd.primEnd {L : List Tok} {rest : List Tok} (h : Hd L rest) (h1 : L.all (fun t => !t.isSym (c% ".")) = true)
    (h2 : L.all (fun t => !t.isKw (c% "WITH")) = true) : PrimEnd rest := ⟨h.nextSym _ h1, h.next2 _ _ h2⟩

theorem aliased_of_primary {r : CR} (hs : ∀ rest, PrimEnd rest → pRelPrimary P (r.yield ++ rest) = some (r, rest)) :
    ∀ rest, Hd (kwT (c% "TABLESAMPLE") :: relHd) rest → pAliased P (r.yield ++ rest) = some (r, rest) := by
  intro rest hr
  rw [pAliased]
  refine bind_s (hs rest (hr.primEnd (by decide +kernel) (by decide +kernel))) ?_
  have := optAlias_ok (b := false) (a := none) (by intro t h; cases h) (by intro h; cases h) (hr.kwNone _ (by decide +kernel))
    (hr.optTok _ (by decide +kernel))
  refine bind_s this ?_
  rfl

theorem RGood.ofPrimary {r : CR} (h : r.lvl = 3) (hs : ∀ rest, PrimEnd rest → pRelPrimary P (r.yield ++ rest) = some (r, rest)) :
    RGood r where
  rel rest hr := by
    rw [P_rel]
    exact bind_s (sampled_of_aliased (aliased_of_primary hs) rest hr) rfl
  sampled _ := sampled_of_aliased (aliased_of_primary hs)
  aliased _ := aliased_of_primary hs
  primary _ := hs

theorem rel_table {n : List Tok} (hne : n ≠ []) (h : Words n) : RGood (.table n) := by
  refine RGood.ofPrimary rfl fun rest hr => ?_
  rw [CR_yield_table]
  have hq := pQName_ok hne h (notName_of hr.1)
  match n, hne, h, hq with
  | t :: ns, _, h, hq =>
    have ht := h t (by simp)
    obtain ⟨r, he⟩ : ∃ r, qname (t :: ns) ++ rest = t :: r := by cases ns <;> exact ⟨_, rfl⟩
    rw [he] at hq ⊢
    refine ite_f (word_sym ht _) (ite_f (word_kw ht _ (by decide +kernel)) (ite_f (word_kw ht _ (by decide +kernel)) ?_))
    exact bind_s hq rfl

theorem rel_sub {q : CQ} (h : QGood q) (hs : ∀ rest, qStart (q.yield ++ symT (c% ")") :: rest) = true) : RGood (.sub q) := by
  refine RGood.ofPrimary rfl fun rest hr => ?_
  rw [CR_yield_sub, inParens, List.cons_append, List.append_assoc]
  refine ite_t rfl (ite_t (hs _) ?_)
  exact bind_s (sub_ok h rest) rfl

theorem rel_lateral {q : CQ} (h : QGood q) : RGood (.lateral q) := by
  refine RGood.ofPrimary rfl fun rest hr => ?_
  rw [CR_yield_lateral, inParens, List.cons_append, List.cons_append, List.append_assoc]
  refine ite_f rfl (ite_f rfl (ite_t rfl ?_))
  refine bind_s (sym_same _ _) ?_
  exact bind_s (sub_ok h rest) rfl

theorem rel_unnest {es : List CE} {o : Bool} (hne : es ≠ []) (h : ∀ e ∈ es, Good e) : RGood (.unnest es o) := by
  refine RGood.ofPrimary rfl fun rest hr => ?_
  rw [CR_yield_unnest, inParens]
  simp only [List.cons_append, List.append_assoc, List.nil_append]
  refine ite_f rfl (ite_t rfl ?_)
  refine bind_s (sym_same _ _) ?_
  refine bind_s (exprs_ok hne h End.rpar) ?_
  refine bind_s (sym_same _ _) ?_
  cases o with
  | true => rfl
  | false =>
    have : optOrdinality (flag false [kwT (c% "WITH"), kwT (c% "ORDINALITY")] ++ rest) = (false, rest) := by
      show optOrdinality rest = _
      rw [optOrdinality, hr.2]; rfl
    simp only [this]

/-! ### The start of a relation -/

/-- No query goes on here after a closing parenthesis. -/
def NoMore (rest : List Tok) : Prop := nextIs (fun u => u.isSym (c% ")") || u.isKwOf queryMore) rest = false

theorem start_paren {x rest : List Tok} (hb : Bal x) (h : NoMore rest) : qStart (inParens x ++ rest) = false := by
  rw [inParens, List.cons_append, List.append_assoc]
  show (false || (qnwStart (x ++ symT (c% ")") :: rest) && afterClose _ (x ++ symT (c% ")") :: rest))) = false
  rw [afterClose, hb, scan_rpar0]
  show (false || (_ && nextIs _ rest)) = false
  have : nextIs (fun u => u.isSym (c% ")") || u.isKwOf queryMore) rest = false := h
  rw [this]; simp

theorem start_tok {t : Tok} {ts : List Tok} (h1 : t.isSym (c% "(") = false) (h2 : t.isKwOf [c% "WITH", c% "SELECT", c% "VALUES", c% "TABLE"] = false) :
    qStart (t :: ts) = false := by
  have h3 : t.isKw (c% "WITH") = false := by rw [← isKwOf_one]; exact isKwOf_sub h2 (by decide +kernel)
  have h4 : t.isKwOf [c% "SELECT", c% "VALUES", c% "TABLE"] = false := isKwOf_sub h2 (by decide +kernel)
  rw [qStart, nextKw, h3, qnwStart, h1]
  simp [h4]

theorem Hd.noMore {L : List Tok} {rest : List Tok} (h : Hd L rest) (hL : L.all (fun u => !(u.isSym (c% ")") || u.isKwOf queryMore)) = true) :
    NoMore rest := h.next _ hL

theorem word_noMore {t : Tok} {ts : List Tok} (h : Word t) : NoMore (t :: ts) := by
  show (_ || _) = false
  rw [word_sym h, word_kwOf h queryMore (by decide +kernel)]; rfl

theorem join_hd (t : CJoin) (ts : List Tok) : Hd joinHd (t.yield ++ ts) := by
  cases t with
  | inner b => cases b <;> exact Hd.cons (by decide +kernel)
  | left b => cases b <;> exact Hd.cons (by decide +kernel)
  | right b => cases b <;> exact Hd.cons (by decide +kernel)
  | full b => cases b <;> exact Hd.cons (by decide +kernel)

theorem rel_start : ∀ r : CR, r.Plain → ∀ rest, (r.isSub = true → NoMore rest) → qStart (r.yield ++ rest) = false
  | .cross l r, h, rest, _ => by
    rw [CR_Plain_cross] at h
    rw [CR_yield_cross, List.append_assoc]
    exact rel_start l h.1 _ fun _ => rfl
  | .join l t r c, h, rest, _ => by
    rw [CR_Plain_join] at h
    rw [CR_yield_join, List.append_assoc, List.append_assoc]
    exact rel_start l h.1 _ fun _ => (join_hd t _).noMore (by decide +kernel)
  | .natural l t r, h, rest, _ => by
    rw [CR_Plain_natural] at h
    rw [CR_yield_natural, List.append_assoc]
    exact rel_start l h.1 _ fun _ => rfl
  | .sample r t e, h, rest, _ => by
    rw [CR_Plain_sample] at h
    rw [CR_yield_sample, List.append_assoc]
    exact rel_start r h.1 _ fun _ => rfl
  | .alias r b n cols, h, rest, _ => by
    rw [CR_Plain_alias] at h
    rw [CR_yield_alias, List.append_assoc, List.append_assoc]
    refine rel_start r h.1 _ fun _ => ?_
    cases b with
    | true => rfl
    | false => exact word_noMore h.2.2.1
  | .table n, h, rest, _ => by
    rw [CR_Plain_table] at h
    rw [CR_yield_table]
    match n, h with
    | t :: ns, h =>
      have ht := h.2 t (by simp)
      obtain ⟨r, he⟩ : ∃ r, qname (t :: ns) ++ rest = t :: r := by cases ns <;> exact ⟨_, rfl⟩
      rw [he]
      exact start_tok (word_sym ht _) (word_kwOf ht _ (by decide +kernel))
    | [], h => exact absurd rfl h.1
  | .sub q, h, rest, hr => by
    rw [CR_Plain_sub] at h
    rw [CR_yield_sub]
    exact start_paren (CQ.bal q h) (hr rfl)
  | .unnest es o, h, rest, _ => by rw [CR_yield_unnest]; rfl
  | .lateral q, h, rest, _ => by rw [CR_yield_lateral]; rfl
  | .paren r, h, rest, hr => by
    rw [CR_Plain_paren] at h
    rw [CR_yield_paren, inParens, List.cons_append, List.append_assoc]
    have h1 := rel_start r h.1 (symT (c% ")") :: rest) fun h' => by rw [h.2] at h'; cases h'
    rw [qStart, Bool.or_eq_false_iff] at h1
    show (false || qnwStart (symT (c% "(") :: (r.yield ++ symT (c% ")") :: rest))) = false
    rw [qnw_par h1.2]; rfl

theorem relLoop_end {r : CR} {rest : List Tok} (h : Hd relEnd rest) : P (.relLoop r) rest = some (r, rest) := by
  rw [P_relLoop, pRelLoop]
  exact ite_f (h.nextKw _ (by decide +kernel)) (ite_f (h.nextKw _ (by decide +kernel)) (ite_f (h.next _ (by decide +kernel)) rfl))

theorem rel_paren {r : CR} (hp : r.Plain) (hl : r.isSub = false) (h : RGood r) : RGood (.paren r) := by
  refine RGood.ofPrimary rfl fun rest hr => ?_
  rw [CR_yield_paren, inParens, List.cons_append, List.append_assoc]
  refine ite_t rfl (ite_f (rel_start r hp _ fun h => by rw [hl] at h; cases h) ?_)
  refine bind_s (a := (r, symT (c% ")") :: rest)) ?_ (bind_s (sym_same _ _) rfl)
  show P .rel (r.yield ++ symT (c% ")") :: rest) = _
  rw [h.rel _ (Hd.cons (by decide +kernel)), relLoop_end (Hd.cons (by decide +kernel))]

theorem rel_alias {r : CR} {b : Bool} {n : Tok} {cols : List Tok} (h : RGood r) (hl : 3 ≤ r.lvl) (hn : Word n) (hc : Words cols) :
    RGood (.alias r b n cols) := by
  refine RGood.ofAliased rfl fun rest hr => ?_
  rw [CR_yield_alias, List.append_assoc, List.append_assoc, pAliased]
  have hpe : PrimEnd (aliasPart b (some n) ++ (columns cols ++ rest)) := by
    cases b with
    | true => exact (Hd.cons (L := [kwT (c% "AS")]) (t := kwT (c% "AS")) (by decide +kernel)).primEnd (by decide +kernel) (by decide +kernel)
    | false =>
      refine ⟨word_sym hn _, ?_⟩
      show next2 _ _ (n :: (columns cols ++ rest)) = false
      cases columns cols ++ rest with
      | nil => rfl
      | cons u us => simp only [next2, word_kw hn (c% "WITH") (by decide +kernel)]; rfl
  refine bind_s (h.primary hl _ hpe) ?_
  have ha : optAlias (aliasPart b (some n) ++ (columns cols ++ rest)) = some ((b, some n), columns cols ++ rest) := by
    cases b with
    | true =>
      show optAlias (kwT (c% "AS") :: n :: (columns cols ++ rest)) = _
      rw [optAlias, kw_same _ _ (by decide +kernel)]
      refine bind_s (a := (n, columns cols ++ rest)) ?_ rfl
      simp [pIdent, word_isIdent hn]
    | false =>
      show optAlias (n :: (columns cols ++ rest)) = _
      rw [optAlias, show kw (c% "AS") (n :: (columns cols ++ rest)) = none from by
        simp [kw, word_kw hn (c% "AS") (by decide +kernel)]]
      simp [optTok, word_alias hn]
  refine bind_s ha ?_
  exact bind_s (optColumns_ok hc (hr.nextSym _ (by decide +kernel))) rfl

theorem rel_sample {r : CR} {t : Tok} {e : CE} (h : RGood r) (hl : 2 ≤ r.lvl) (ht : KwIn [c% "BERNOULLI", c% "SYSTEM"] t) (he : Good e) :
    RGood (.sample r t e) := by
  refine RGood.ofSampled rfl fun rest hr => ?_
  rw [CR_yield_sample, inParens]
  simp only [List.cons_append, List.append_assoc, List.nil_append]
  rw [pSampled]
  refine bind_s (h.aliased hl _ (Hd.cons (by decide +kernel))) ?_
  simp only [kw_same (c% "TABLESAMPLE") _ (by decide +kernel)]
  refine bind_s (a := (t, _)) (by simp only [tokIf, kwIn_isKwOf ht (by decide +kernel), if_pos]; rfl) ?_
  refine bind_s (sym_same _ _) ?_
  refine bind_s (he.full 0 (by omega) _ (Stop.free frank_rpar)) ?_
  exact bind_s (sym_same _ _) rfl

theorem RGood.ofJoin {r : CR} (h : r.lvl = 0) (hs : ∀ rest, Hd relHd rest → P .rel (r.yield ++ rest) = P (.relLoop r) rest) :
    RGood r where
  rel := hs
  sampled h2 := by omega
  aliased h2 := by omega
  primary h2 := by omega

theorem rel_cross {l r : CR} (hl : RGood l) (hr : RGood r) (hk : 1 ≤ r.lvl) : RGood (.cross l r) := by
  refine RGood.ofJoin rfl fun rest hs => ?_
  rw [CR_yield_cross, List.append_assoc, List.cons_append, List.cons_append, hl.rel _ (Hd.cons (by decide +kernel)), P_relLoop, pRelLoop]
  refine ite_t rfl ?_
  refine bind_s (kw_same _ _ (by decide +kernel)) ?_
  exact bind_s (hr.sampled hk rest hs) rfl

theorem joinType_ok (t : CJoin) (rest : List Tok) : pJoinType (t.yield ++ rest) = some (t, rest) := by
  cases t with
  | inner b => cases b <;> rfl
  | left b => cases b <;> rfl
  | right b => cases b <;> rfl
  | full b => cases b <;> rfl

theorem rel_natural {l r : CR} {t : CJoin} (hl : RGood l) (hr : RGood r) (hk : 1 ≤ r.lvl) : RGood (.natural l t r) := by
  refine RGood.ofJoin rfl fun rest hs => ?_
  rw [CR_yield_natural, List.append_assoc, List.cons_append, List.append_assoc, hl.rel _ (Hd.cons (by decide +kernel)), P_relLoop, pRelLoop]
  refine ite_f rfl (ite_t rfl ?_)
  refine bind_s (joinType_ok t _) ?_
  exact bind_s (hr.sampled hk rest hs) rfl

def CritGood (c : CCrit) : Prop := ∀ rest, Hd relHd rest → pCrit P (c.yield ++ rest) = some (c, rest)

theorem crit_on {e : CE} (he : Good e) : CritGood (.on e) := by
  intro rest hr
  rw [CCrit_yield_on]
  show pCrit P (kwT (c% "ON") :: (e.yield ++ rest)) = _
  rw [pCrit, kw_same _ _ (by decide +kernel)]
  exact bind_s (he.full 0 (by omega) _ (hr.stop (by decide +kernel) 0)) rfl

theorem crit_using {cols : List Tok} (hne : cols ≠ []) (hc : Words cols) : CritGood (.using cols) := by
  intro rest hr
  rw [CCrit_yield_using]
  show pCrit P (kwT (c% "USING") :: (columns cols ++ rest)) = _
  rw [pCrit, show kw (c% "ON") (kwT (c% "USING") :: (columns cols ++ rest)) = none from rfl]
  refine bind_s (kw_same _ _ (by decide +kernel)) ?_
  exact bind_s (pColumns_ok hne hc) rfl

theorem crit_hd {c : CCrit} (rest : List Tok) : Hd [kwT (c% "ON"), kwT (c% "USING")] (c.yield ++ rest) := by
  cases c with
  | on e => rw [CCrit_yield_on]; exact Hd.cons (by decide +kernel)
  | «using» cs => rw [CCrit_yield_using]; exact Hd.cons (by decide +kernel)

theorem rel_join {l r : CR} {t : CJoin} {c : CCrit} (hl : RGood l) (hr : RGood r) (hc : CritGood c) : RGood (.join l t r c) := by
  refine RGood.ofJoin rfl fun rest hs => ?_
  have hj := join_hd t (r.yield ++ (c.yield ++ rest))
  have hcr := crit_hd (c := c) rest
  rw [CR_yield_join, List.append_assoc, List.append_assoc, List.append_assoc, hl.rel _ (hj.sub (by decide +kernel)), P_relLoop, pRelLoop]
  have h1 : ∀ k, k = c% "CROSS" ∨ k = c% "NATURAL" → nextKw k (t.yield ++ (r.yield ++ (c.yield ++ rest))) = false := by
    intro k hk
    cases t with
    | inner b => cases b <;> rcases hk with rfl | rfl <;> rfl
    | left b => cases b <;> rcases hk with rfl | rfl <;> rfl
    | right b => cases b <;> rcases hk with rfl | rfl <;> rfl
    | full b => cases b <;> rcases hk with rfl | rfl <;> rfl
  have h2 : nextIs (Tok.isKwOf joinWords) (t.yield ++ (r.yield ++ (c.yield ++ rest))) = true := by
    cases t with
    | inner b => cases b <;> rfl
    | left b => cases b <;> rfl
    | right b => cases b <;> rfl
    | full b => cases b <;> rfl
  refine ite_f (h1 _ (.inl rfl)) (ite_f (h1 _ (.inr rfl)) (ite_t h2 ?_))
  refine bind_s (joinType_ok t _) ?_
  have h3 : P .rel (r.yield ++ (c.yield ++ rest)) = some (r, c.yield ++ rest) := by
    rw [hr.rel _ (hcr.sub (by decide +kernel)), relLoop_end (hcr.sub (by decide +kernel))]
  refine bind_s (a := (r, c.yield ++ rest)) h3 ?_
  exact bind_s (hc rest hs) rfl

theorem optFrom_ok {rs : List CR} (h : ∀ r ∈ rs, RGood r) {rest : List Tok} (hr : Hd whereHd rest) :
    optFrom P (clause [kwT (c% "FROM")] (CR.yields rs) ++ rest) = some (rs, rest) := by
  cases rs with
  | nil =>
    rw [CR_yields_nil]
    show optFrom P rest = _
    rw [optFrom, hr.kwNone _ (by decide +kernel)]
  | cons r rs =>
    rw [rel_yields]
    show optFrom P (kwT (c% "FROM") :: (commas ((r :: rs).map CR.yield) ++ rest)) = _
    rw [optFrom, kw_same _ _ (by decide +kernel)]
    refine sep_ok P_rels CR.yield (Hd relEnd) (fun ts => Hd.cons (by decide +kernel)) _ (by simp)
      (fun d hd rest hs => ?_) rest (hr.sub (by decide +kernel)) (hr.symNone _ (by decide +kernel))
    have hh := (h d hd).rel rest (hs.sub (by decide +kernel))
    exact hh.trans (relLoop_end hs)

/-! ## Queries -/

/-- The term is read at the level. -/
def TermAt (q : CQT) (p : Nat) : Prop := ∀ rest, Hd setHd rest → NoHigher p rest →
  P (.qterm p) (q.yield ++ rest) = afterTerm p q rest

theorem NoHigher.up {p : Nat} {rest : List Tok} (h : NoHigher p rest) : NoHigher (p + 1) rest :=
  fun p' hp => h p' (Nat.lt_of_succ_lt hp)

theorem afterTerm_end {p : Nat} {q : CQT} {rest : List Tok} (h : nextIs (Tok.isSetOp p) rest = false) :
    afterTerm p q rest = some (q, rest) := by
  rw [afterTerm]
  split
  · rw [P_qloop]; exact ite_f h rfl
  · rfl

theorem termAt_down {q : CQT} {p : Nat} (hp : p < 2) (h : TermAt q (p + 1)) : TermAt q p := by
  intro rest hr hn
  have h1 := (h rest hr hn.up).trans (afterTerm_end (hn _ (Nat.lt_succ_self p)))
  rw [afterTerm, if_pos hp, P_qterm]
  match p, hp, h1 with
  | 0, _, h1 => exact bind_s h1 rfl
  | 1, _, h1 => exact bind_s h1 rfl

theorem termAt_le {q : CQT} {n : Nat} (hn : n ≤ 2) (h : TermAt q n) : ∀ p, p ≤ n → TermAt q p := by
  induction n with
  | zero => intro p hp; exact Nat.le_zero.1 hp ▸ h
  | succ n ih =>
    intro p hp
    rcases Nat.lt_or_eq_of_le hp with hlt | rfl
    · exact ih (Nat.le_of_succ_le hn) (termAt_down hn h) p (Nat.le_of_lt_succ hlt)
    · exact h

theorem isSetOp_high {p : Nat} (hp : 2 ≤ p) (ts : List Tok) : nextIs (Tok.isSetOp p) ts = false := by
  match p, hp with
  | p + 2, _ => cases ts <;> rfl

theorem qterm_ok {q : CQT} {t : Tok} {y : List Tok} (hy : q.yield = t :: y)
    (h : ∀ rest, Hd setHd rest → pQPrimary P (t :: (y ++ rest)) = some (q, rest)) (hl : q.lvl = 2 := by rfl) : QTGood q := by
  have h2 : TermAt q 2 := fun rest hr _ => by rw [hy, P_qterm]; exact h rest hr
  exact fun p hp => termAt_le (Nat.le_refl 2) h2 p (hl ▸ hp)

theorem tokIf_ok {f : Tok → Bool} {t : Tok} (h : f t = true) (ts : List Tok) : tokIf f (t :: ts) = some (t, ts) := by
  simp [tokIf, h]

/-- What a query term begins with. -/
def termHd : List Tok := [kwT (c% "SELECT"), kwT (c% "TABLE"), kwT (c% "VALUES"), symT (c% "(")]

theorem qt_hd : ∀ (t : CQT) (rest : List Tok), Hd termHd (t.yield ++ rest)
  | .set a b c d, rest => by rw [CQT_yield_set, List.append_assoc]; exact qt_hd c _
  | .spec a b c d e f g h, rest => by rw [CQT_yield_spec]; exact Hd.cons (by decide +kernel)
  | .table n, rest => by rw [CQT_yield_table]; exact Hd.cons (by decide +kernel)
  | .values es, rest => by rw [CQT_yield_values]; exact Hd.cons (by decide +kernel)
  | .sub q, rest => by rw [CQT_yield_sub]; exact Hd.cons (by decide +kernel)

/-- One set operation at its level. -/
theorem setAt {op : Tok} {q : Option Tok} {l r : CQT} {k : Nat} (hk : k < 2) (hop : op.isSetOp k = true)
    (hhd : setHd.contains op = true) (hno : NoHigher k [op]) (hq : Opt (KwIn [c% "DISTINCT", c% "ALL"]) q)
    (hl : TermAt l k) (hr : TermAt r (k + 1)) (hqr : ∀ rest, optTok Tok.isQuant (r.yield ++ rest) = (none, r.yield ++ rest)) :
    TermAt (.set op q l r) k := by
  intro rest hh hn
  rw [CQT_yield_set, List.append_assoc, List.cons_append, List.append_assoc]
  have h1 := hl (op :: (q.toList ++ (r.yield ++ rest))) (Hd.cons hhd) (fun p' hp => hno p' hp)
  rw [afterTerm, if_pos hk, P_qloop] at h1
  rw [h1, pQLoop]
  refine ite_t (show op.isSetOp k = true from hop) ?_
  refine bind_s (tokIf_ok hop _) ?_
  simp only [optQuant_ok hq (hqr rest)]
  refine bind_s ((hr rest hh hn.up).trans (afterTerm_end (hn _ (Nat.lt_succ_self k)))) ?_
  rw [afterTerm, if_pos hk, optQuant_ok hq (hqr rest)]

theorem qt_set {op : Tok} {q : Option Tok} {l r : CQT} (hp : (CQT.set op q l r).Plain) (hl : QTGood l) (hr : QTGood r)
: QTGood (.set op q l r) := by
  have hqr : ∀ rest, optTok Tok.isQuant (r.yield ++ rest) = (none, r.yield ++ rest) := fun rest => (qt_hd r rest).optTok _ (by decide +kernel)
  rw [CQT_Plain_set] at hp
  obtain ⟨hop, hq, -, -, hlv⟩ := hp
  have hone : ∀ {k : Nat} {o : Tok}, k < 2 → (∀ p', k < p' → p' < 2 → o.isSetOp p' = false) → NoHigher k [o] := fun _ h p' hp => by
    rcases Nat.lt_or_ge p' 2 with h2 | h2
    · exact h p' hp h2
    · exact isSetOp_high h2 _
  obtain ⟨s, hs, rfl⟩ := KwIn.of hop
  simp only [List.mem_cons, List.not_mem_nil, or_false] at hs
  rcases hs with rfl | rfl | rfl
  · rw [if_neg (by decide +kernel)] at hlv
    have := setAt (op := kwT (c% "UNION")) (k := 0) (by decide) (by decide +kernel) (by decide +kernel)
      (hone (by decide) fun p' h1 h2 => by rw [show p' = 1 by omega]; decide +kernel) hq (hl 0 (Nat.zero_le _)) (hr 1 hlv) hqr
    exact fun p hp => Nat.le_zero.1 hp ▸ this
  · rw [if_neg (by decide +kernel)] at hlv
    have := setAt (op := kwT (c% "EXCEPT")) (k := 0) (by decide) (by decide +kernel) (by decide +kernel)
      (hone (by decide) fun p' h1 h2 => by rw [show p' = 1 by omega]; decide +kernel) hq (hl 0 (Nat.zero_le _)) (hr 1 hlv) hqr
    exact fun p hp => Nat.le_zero.1 hp ▸ this
  · rw [if_pos (by decide +kernel)] at hlv
    have := setAt (op := kwT (c% "INTERSECT")) (k := 1) (by decide) (by decide +kernel) (by decide +kernel)
      (hone (by decide) fun p' h1 h2 => by omega) hq (hl 1 hlv.1) (hr 2 hlv.2) hqr
    exact fun p hp => termAt_le (by decide) this p hp

theorem qt_sub {q : CQN} (h : QNGood q) : QTGood (.sub q) := by
  refine qterm_ok (y := q.yield ++ [symT (c% ")")]) (CQT_yield_sub q) fun rest hr => ?_
  rw [pQPrimary]
  refine ite_f rfl (ite_f rfl (ite_f rfl (ite_t rfl ?_)))
  rw [List.append_assoc]
  refine bind_s (h _ (Hd.cons (by decide +kernel))) ?_
  exact bind_s (sym_same _ _) rfl

theorem qt_table {n : List Tok} (hne : n ≠ []) (h : Words n) : QTGood (.table n) := by
  refine qterm_ok (CQT_yield_table n) fun rest hr => ?_
  rw [pQPrimary]
  refine ite_f rfl (ite_t rfl ?_)
  exact bind_s (pQName_ok hne h (notName_of (hr.nextSym _ (by decide +kernel)))) rfl

theorem qt_values {es : List CE} (hne : es ≠ []) (h : ∀ e ∈ es, Good e) : QTGood (.values es) := by
  refine qterm_ok (CQT_yield_values es) fun rest hr => ?_
  rw [pQPrimary]
  refine ite_f rfl (ite_f rfl (ite_t rfl ?_))
  exact bind_s (exprs_ok hne h (hr.end_ (by decide +kernel))) rfl

theorem qt_spec {q : Option Tok} {items : List CItem} {fr : List CR} {wh : Option CE} {gq : Option Tok} {gs : List CGrp}
    {hv : Option CE} {ws : List CWinDef} (hp : (CQT.spec q items fr wh gq gs hv ws).Plain)
    (hi : ∀ i ∈ items, ItemGood i) (hf : ∀ r ∈ fr, RGood r) (hw : ∀ e, wh = some e → Good e) (hg : ∀ g ∈ gs, GrpGood g)
    (hh : ∀ e, hv = some e → Good e) (hd : ∀ w ∈ ws, WDefGood w) : QTGood (.spec q items fr wh gq gs hv ws) := by
  rw [CQT_Plain_spec] at hp
  obtain ⟨hq, hne, hpi, hpf, hpw, hgq, hgqs, hpg, hph, hpd⟩ := hp
  refine qterm_ok (CQT_yield_spec q items fr wh gq gs hv ws) fun rest hr => ?_
  simp only [List.append_assoc]
  rw [pQPrimary]
  refine ite_t rfl ?_
  generalize hW : clause [kwT (c% "WINDOW")] (CWinDef.yields ws) ++ rest = W
  have h1 : Hd winHd W := by rw [← hW]; exact Hd.clause (hr.sub (by decide +kernel)) (by decide +kernel) rfl
  generalize hH : optPart [kwT (c% "HAVING")] (CE.yieldOpt hv) ++ W = H
  have h2 : Hd havHd H := by rw [← hH]; exact Hd.optPart (h1.sub (by decide +kernel)) (by decide +kernel) rfl
  generalize hG : clause (kwT (c% "GROUP") :: kwT (c% "BY") :: gq.toList) (CGrp.yields gs) ++ H = G
  have h3 : Hd grpHd G := by rw [← hG]; exact Hd.clause (h2.sub (by decide +kernel)) (by decide +kernel) rfl
  generalize hE : optPart [kwT (c% "WHERE")] (CE.yieldOpt wh) ++ G = E
  have h4 : Hd whereHd E := by rw [← hE]; exact Hd.optPart (h3.sub (by decide +kernel)) (by decide +kernel) rfl
  generalize hF : clause [kwT (c% "FROM")] (CR.yields fr) ++ E = F
  have h5 : Hd fromHd F := by rw [← hF]; exact Hd.clause (h4.sub (by decide +kernel)) (by decide +kernel) rfl
  have hqt : optTok Tok.isQuant (commas (CItem.yields items) ++ F) = (none, commas (CItem.yields items) ++ F) := by
    match items, hne, hpi with
    | i :: is, _, hpi =>
      rw [CItem_yields_cons]
      obtain ⟨r', he, hd⟩ := nextDot_sepTail (s := symT (c% ",")) rfl (h5.star (by decide +kernel)) (x := i.yield) (xs := CItem.yields is)
      rw [commas, he]
      rw [CItem_Plains_cons] at hpi
      exact item_heads hpi.1 hd
  rw [pSelect]
  simp only [optQuant_ok hq hqt]
  refine bind_s (items_ok hne hi h5) ?_
  rw [← hF]
  refine bind_s (optFrom_ok hf h4) ?_
  rw [← hE]
  refine bind_s (optExpr_ok (by decide +kernel) hw (h3.stop (by decide +kernel) 0) (h3.kwNone _ (by decide +kernel))) ?_
  rw [← hG]
  refine bind_s (optGroup_ok hgq hgqs hpg hg h2) ?_
  rw [← hH]
  refine bind_s (optExpr_ok (by decide +kernel) hh (h1.stop (by decide +kernel) 0) (h1.kwNone _ (by decide +kernel))) ?_
  rw [← hW]
  exact bind_s (optWindow_ok hd hr) rfl

theorem count_ok {t : Tok} (h : PlainCount t) : t.isCount = true := by
  rcases h with h | rfl
  · simp [Tok.isCount, h]
  · decide +kernel

theorem qn_good {t : CQT} {ob : List CSort} {off : Option (Tok × Option Tok)} {lim : CLimit} (ht : QTGood t)
    (hob : ∀ s ∈ ob, SortGood s) (hoff : PlainOffset off) (hlim : PlainLimit lim) : QNGood (.mk t ob off lim) := by
  intro rest hr
  rw [CQN_yield_mk]
  simp only [List.append_assoc]
  have h1 : Hd [kwT (c% "LIMIT"), kwT (c% "FETCH"), symT (c% ")")] (lim.yield ++ rest) := by
    cases lim with
    | none => exact hr.sub (by decide +kernel)
    | limit t => exact Hd.cons (by decide +kernel)
    | fetch a b c d => exact Hd.cons (by decide +kernel)
  have h2 : Hd [kwT (c% "OFFSET"), kwT (c% "LIMIT"), kwT (c% "FETCH"), symT (c% ")")] (offsetPart off ++ (lim.yield ++ rest)) := by
    cases off with
    | none => exact h1.sub (by decide +kernel)
    | some p => exact Hd.cons (by decide +kernel)
  have h3 : Hd tailHd (orderPart (CSort.yields ob) ++ (offsetPart off ++ (lim.yield ++ rest))) :=
    Hd.clause (h2.sub (by decide +kernel)) (by decide +kernel) rfl
  rw [P_qnw, pQnw]
  refine bind_s ((ht 0 (Nat.zero_le _) _ (h3.sub (by decide +kernel)) fun p' hp => ?_).trans (afterTerm_end (h3.next _ (by decide +kernel)))) ?_
  · match p', hp with
    | 1, _ => exact h3.next _ (by decide +kernel)
    | p + 2, _ => exact isSetOp_high (Nat.le_add_left 2 p) _
  refine bind_s (optOrder_ok hob (h2.sub (by decide +kernel))) ?_
  have hO : optOffset (offsetPart off ++ (lim.yield ++ rest)) = some (off, lim.yield ++ rest) := by
    cases off with
    | none =>
      show optOffset (lim.yield ++ rest) = _
      rw [optOffset, h1.kwNone _ (by decide +kernel)]
    | some p =>
      obtain ⟨a, b⟩ := p
      obtain ⟨ha, hb⟩ := hoff _ rfl
      show optOffset (kwT (c% "OFFSET") :: a :: (b.toList ++ (lim.yield ++ rest))) = _
      rw [optOffset, kw_same _ _ (by decide +kernel)]
      refine bind_s (tokIf_ok (count_ok ha) _) ?_
      simp only [optTok_ok (p := Tok.isRows) (optKwIn hb (by decide +kernel)) (h1.optTok Tok.isRows (by decide +kernel))]
  refine bind_s hO ?_
  have hL : optLimit (lim.yield ++ rest) = some (lim, rest) := by
    cases lim with
    | none =>
      show optLimit rest = _
      rw [optLimit, hr.kwNone _ (by decide +kernel), hr.kwNone _ (by decide +kernel)]
    | limit t =>
      show optLimit (kwT (c% "LIMIT") :: t :: rest) = _
      rw [optLimit, kw_same _ _ (by decide +kernel)]
      refine bind_s (tokIf_ok ?_ _) rfl
      rcases hlim with h | rfl
      · rw [count_ok h]; rfl
      · decide +kernel
    | fetch f n r t =>
      obtain ⟨hf, hn, hw⟩ := hlim
      rw [CLimit.yield]
      simp only [List.cons_append, List.nil_append, List.append_assoc]
      show optLimit (kwT (c% "FETCH") :: f :: (n.toList ++ (r :: _))) = _
      have hk : ∀ ts, kw (c% "LIMIT") (kwT (c% "FETCH") :: ts) = none := fun ts => by
        rw [kw, if_neg (by decide +kernel)]
      rw [optLimit, hk, kw_same _ _ (by decide +kernel)]
      refine bind_s (tokIf_ok (kwIn_isKwOf hf (by decide +kernel)) _) ?_
      have hnc : ∀ ts, optTok Tok.isCount (r :: ts) = (none, r :: ts) := fun ts => by
        obtain ⟨s, hs, rfl⟩ := KwIn.of hw
        rfl
      simp only [optTok_ok (p := Tok.isCount) (fun t ht => count_ok (hn t ht)) (hnc _)]
      refine bind_s (tokIf_ok (kwIn_isKwOf hw (by decide +kernel)) _) ?_
      cases t <;> rfl
  exact bind_s hL rfl

def yNamed : CNamed → List Tok
  | .mk n cols q => n :: (columns cols ++ kwT (c% "AS") :: inParens q.yield)

theorem named_yields : ∀ es : List CNamed, CNamed.yields es = es.map yNamed
  | [] => rfl
  | .mk n c q :: es => by rw [CNamed_yields_cons, named_yields es]; rfl

def NamedGood (n : CNamed) : Prop := ∀ rest, pNamed P (yNamed n ++ rest) = some (n, rest)

theorem named_good {n : Tok} {cols : List Tok} {q : CQ} (hn : Word n) (hc : Words cols) (hq : QGood q) : NamedGood (.mk n cols q) := by
  intro rest
  rw [yNamed, pNamed, inParens]
  simp only [List.cons_append, List.append_assoc, List.nil_append]
  refine bind_s (a := (n, _)) (by simp only [pIdent, word_isIdent hn, if_pos]; rfl) ?_
  refine bind_s (optColumns_ok hc rfl) ?_
  refine bind_s (kw_same _ _ (by decide +kernel)) ?_
  refine bind_s (sym_same _ _) ?_
  exact bind_s (sub_ok hq rest) rfl

theorem qn_hd (q : CQN) (rest : List Tok) : Hd termHd (q.yield ++ rest) := by
  cases q with
  | mk t ob off lim =>
    rw [CQN_yield_mk, List.append_assoc]
    exact qt_hd t _

theorem q_good {rc : Bool} {w : List CNamed} {b : CQN} (hrc : rc = true → w ≠ []) (hpw : CNamed.Plains w) (hw : ∀ n ∈ w, NamedGood n) (hb : QNGood b) :
    QGood (.mk rc w b) := by
  intro rest hr
  rw [CQ_yield_mk, List.append_assoc, P_query, pQuery]
  refine bind_s (a := ((rc, w), b.yield ++ rest)) ?_ (bind_s (hb rest hr) rfl)
  have hh := qn_hd b rest
  cases w with
  | nil =>
    have : rc = false := by
      cases rc with
      | false => rfl
      | true => exact absurd rfl (hrc rfl)
    subst this
    rw [CNamed_yields_nil]
    show optWith P (b.yield ++ rest) = _
    rw [optWith, hh.kwNone _ (by decide +kernel)]
  | cons n ns =>
    have hy : clause (kwT (c% "WITH") :: flag rc [kwT (c% "RECURSIVE")]) (CNamed.yields (n :: ns)) ++ (b.yield ++ rest) =
        kwT (c% "WITH") :: (flag rc [kwT (c% "RECURSIVE")] ++ (commas (CNamed.yields (n :: ns)) ++ (b.yield ++ rest))) := by
      rw [named_yields]; simp [clause]
    rw [hy, optWith, kw_same _ _ (by decide +kernel)]
    have hrc : optKw (c% "RECURSIVE") (flag rc [kwT (c% "RECURSIVE")] ++ (commas (CNamed.yields (n :: ns)) ++ (b.yield ++ rest))) =
        (rc, commas (CNamed.yields (n :: ns)) ++ (b.yield ++ rest)) := by
      cases rc with
      | true => rfl
      | false =>
        show optKw (c% "RECURSIVE") (commas (CNamed.yields (n :: ns)) ++ (b.yield ++ rest)) = _
        obtain ⟨nm, cols, q⟩ := n
        rw [CNamed_Plains_cons] at hpw
        obtain ⟨r, hr⟩ : ∃ r, commas (CNamed.yields (CNamed.mk nm cols q :: ns)) ++ (b.yield ++ rest) = nm :: r := by
          rw [CNamed_yields_cons]
          cases CNamed.yields ns <;> exact ⟨_, rfl⟩
        rw [hr]
        simp [optKw, word_kw hpw.1 (c% "RECURSIVE") (by decide +kernel)]
    simp only [hrc]
    refine bind_s (a := (n :: ns, b.yield ++ rest)) ?_ rfl
    rw [named_yields]
    exact sep_ok P_nameds yNamed (fun _ => True) (fun ts => trivial) _ (by simp)
      (fun d hd rest _ => hw d hd rest) _ trivial (hh.symNone _ (by decide +kernel))

end Treeno
