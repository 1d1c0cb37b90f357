import Verif.Lemmas.CstConv
import Verif.Lemmas.CMeanEqs
import Verif.Lemmas.MeanEqs
import Verif.Lemmas.RowsEqs
/-!
# The parse tree of a printed text means what the tree means
-/
namespace Treeno
open Spec

variable {M : Model}

/-- The meaning of a node that is printed negated. -/
def nIf (neg : Bool) (d : M.D) : M.D := if neg then Model.not d else d

theorem nIf_true (d : M.D) : nIf true d = Model.not d := rfl
theorem nIf_false (d : M.D) : nIf false d = d := rfl

theorem not3_not3 (b : Option Bool) : not3 (not3 b) = b := by cases b with
  | none => rfl
  | some b => cases b <;> rfl

theorem not3_and3 (a b : Option Bool) : not3 (and3 a b) = or3 (not3 a) (not3 b) := by
  rcases a with _ | a <;> rcases b with _ | b <;> (try cases a) <;> (try cases b) <;> rfl

theorem not3_or3 (a b : Option Bool) : not3 (or3 a b) = and3 (not3 a) (not3 b) := by
  rcases a with _ | a <;> rcases b with _ | b <;> (try cases a) <;> (try cases b) <;> rfl

theorem not_bool3 (f : M.Env → Option Bool) : Model.not (Model.bool3 f) = (Model.bool3 fun env => not3 (f env) : M.D) := by
  funext env
  show M.ofTruth (not3 (M.truth (M.ofTruth (f env)))) = M.ofTruth (not3 (f env))
  rw [M.truth_ofTruth]

theorem not_between (v l u : M.D) : notBetweenD v l u = Model.not (Model.betweenD v l u) := by
  unfold notBetweenD Model.betweenD
  rw [not_bool3]
  congr 1; funext env
  exact (not3_and3 _ _).symm

theorem all_differ (v : M.V) : ∀ (ds : List M.D) (env : M.Env), allDiffer v ds env = not3 (Model.anyEqual v ds env)
  | [], _ => rfl
  | d :: ds, env => by
    show and3 _ (allDiffer v ds env) = not3 (or3 _ (Model.anyEqual v ds env))
    rw [not3_or3, all_differ v ds env]

theorem not_inList (v : M.D) (ds : List M.D) : notInListD v ds = Model.not (Model.inListD v ds) := by
  unfold notInListD Model.inListD
  rw [not_bool3]
  congr 1; funext env
  exact all_differ _ _ _

theorem not_inRows (v q : M.D) : notInRowsD v q = Model.not (Model.inRowsD v q) := (not_bool3 _).symm
theorem not_like (v p : M.D) (e : Option M.D) : notLikeD v p e = Model.not (Model.likeD v p e) := (not_bool3 _).symm
theorem not_isNull (v : M.D) : isNotNullD v = Model.not (Model.isNullD v) :=
  (not_bool3 fun env => some (M.isNull (v env))).symm
theorem not_distinct (a b : M.D) : notDistinctD a b = Model.not (Model.binary .distinct a b) :=
  (not_bool3 fun env => some (M.distinct (a env) (b env))).symm
theorem not_eq (a b : M.D) : Model.binary .ne a b = Model.not (Model.binary .eq a b) := (not_bool3 _).symm
theorem not_ne (a b : M.D) : Model.binary .eq a b = Model.not (Model.binary .ne a b) := by
  refine Eq.trans ?_ (not_bool3 fun env => not3 (M.equal (a env) (b env))).symm
  show Model.bool3 _ = _
  congr 1; funext env
  exact (not3_not3 _).symm

/-! ## Names, strings, numbers -/

theorem undouble_none (q : Char) : ∀ s : Str, q ∉ s → undouble q s = s
  | [], _ => rfl
  | [_], _ => rfl
  | a :: b :: s, h => by
    have ha : a ≠ q := fun e => h (by simp [e])
    rw [undouble, if_neg (fun e => ha e.1), undouble_none q (b :: s) (fun e => h (List.mem_cons_of_mem _ e))]

theorem inner_quoted (q : Char) (s : Str) : inner (q :: (s ++ [q])) = s := by
  unfold inner
  simp

theorem nameOf_name {n : Str} (h : NameOk n) : nameOf (nameTok n) = n := by
  show undouble '"' (inner (quoteIdent n)) = n
  have : quoteIdent n = '"' :: (n ++ ['"']) := rfl
  rw [this, inner_quoted, undouble_none _ _ h.1]

theorem nameOf_word (w : Str) : nameOf (wordOf w) = w := by
  unfold wordOf nameOf
  cases isKeyword w <;> rfl

theorem nameOf_words (ws : List Str) : (ws.map wordOf).map nameOf = ws := by
  rw [List.map_map]
  exact (List.map_congr_left fun w _ => nameOf_word w).trans (List.map_id _)

theorem nameOf_opt (w : Option Str) : (w.map wordOf).map nameOf = w := by
  cases w with
  | none => rfl
  | some w => exact congrArg some (nameOf_word w)

theorem stringOf_str {s : Str} (h : StrOk s) : stringOf (.basic (strTok s)) = s := by
  show undouble '\'' (inner (quoteLit s)) = s
  have : quoteLit s = '\'' :: (s ++ ['\'']) := rfl
  rw [this, inner_quoted, undouble_none _ _ h.1]

theorem number_int (m : Bool) (n : Nat) : (numberOf m ⟨.int, natStr n⟩ : M.D) = Model.integer (if m then -(n : Int) else n) := by
  show Model.integer (if m then -(digitsVal (natStr n) : Int) else digitsVal (natStr n)) = _
  rw [natStr_val]

theorem number_dec (m : Bool) {d : Dec} (h : DecOk d) : (numberOf m ⟨.dec, d.absStr⟩ : M.D) = Model.decimal { d with neg := m } := by
  unfold numberOf
  rw [decOfPlain_abs h]
  cases m <;> rfl

theorem litCst_mean {v : Option Scalar} (h : LitOk v) : (litCst v).mean M = litMeaning v := by
  cases v with
  | none => rfl
  | some v =>
    cases v with
    | bool b => cases b <;> rfl
    | int n =>
      show numberOf _ _ = Model.integer n
      rw [number_int]
      congr 1
      by_cases hn : n < 0
      · rw [decide_eq_true hn, if_pos rfl]; omega
      · rw [decide_eq_false hn, if_neg (by decide)]; omega
    | float s => exact h.elim
    | dec d =>
      show numberOf d.neg _ = Model.decimal d
      rw [number_dec _ h]
    | str s =>
      show Model.const (.text (stringOf _)) = _
      rw [stringOf_str h]; rfl

theorem neg_number_mean {v : Expr} {c : Tok} (ht : v.Tidy false) (hn : isNumber v = true) (hc : v.cst false = .num false c) :
    (numberOf true c : M.D) = Model.neg (v.mean M) := by
  cases v
  case lit x ty =>
    rw [Expr_Tidy_lit] at ht
    rw [Expr_cst_lit] at hc
    rw [Expr_mean_lit]
    cases x with
    | none => exact nomatch hn
    | some x =>
      cases x
      case int n =>
        have : c = ⟨.int, natStr n.natAbs⟩ := by
          have := hc
          unfold litCst at this
          exact (CE.num.inj this).2.symm
        rw [this, number_int]
        have h0 : 0 ≤ n := of_decide_eq_true hn
        funext env
        show M.int _ = M.negate (M.int n)
        rw [M.negate_int, if_pos rfl]
        congr 1; omega
      case dec d =>
        have hd : d.neg = false := by simpa [isNumber] using hn
        have : c = ⟨.dec, d.absStr⟩ := by
          have := hc
          unfold litCst at this
          exact (CE.num.inj this).2.symm
        rw [this, number_dec _ ht]
        funext env
        show M.dec _ = M.negate (M.dec d)
        rw [M.negate_dec, hd]
        rfl
      all_goals exact nomatch hn
  all_goals exact nomatch hn

theorem wrapC_mean (b : Bool) (c : CE) : (wrapC b c).mean M = c.mean M := by
  cases b <;> rfl
theorem wrapR_mean (b : Bool) (c : CR) : (wrapR b c).mean M = c.mean M := by
  cases b <;> rfl

theorem binCst_mean {op : BinOp} {l r : CE} {dl dr : M.D} {neg : Bool} {x y : Expr} (hl : l.mean M = dl) (hr : r.mean M = dr)
    (hn : neg = true → (Expr.bin op x y).negatable = true) :
    (binCst neg op l r).mean M = nIf neg (Model.binary op dl dr) := by
  subst hl hr
  cases neg with
  | false =>
    cases op
    case ne => exact (not_eq _ _).symm
    all_goals rfl
  | true =>
    cases op
    case eq => rfl
    case ne => exact not_ne _ _
    case distinct => exact not_distinct _ _
    all_goals exact nomatch hn rfl

theorem setCst_mean (cs : List CE) : (setCst cs).mean M = M.op .group (CE.means M cs) := by
  rcases cs with _ | ⟨c, _ | ⟨d, cs⟩⟩ <;> rfl

theorem overflow_mean {ov : Option (Str × Bool)} (h : IfAny (fun f => StrOk f.1) ov) : overflowMeaning (overflowCst ov) = ov := by
  cases ov with
  | none => rfl
  | some f =>
    show some (((some (CStr.basic (strTok f.1))).map stringOf).getD _, f.2) = some f
    show some (stringOf (.basic (strTok f.1)), f.2) = some f
    rw [stringOf_str (h f rfl)]

theorem sep_mean {sep : Str} (h : StrOk sep) : ((sepCst sep).map stringOf).getD (c% " ") = sep := by
  unfold sepCst
  split
  · exact stringOf_str h
  · next h => exact (by simpa using h : sep = c% " ").symm

theorem table_mean {t : TableRef} (ht : TableOk t) (hf : TableFits t) : (tableName t.nameToks : M.D) = tableMeaning t := by
  obtain ⟨n, s, c, cols⟩ := t
  have hn : nameOf (nameTok n) = n := nameOf_name ht.1
  cases s with
  | none =>
    cases c with
    | none =>
      show Model.const (.table none none (nameOf (nameTok n))) = _
      rw [hn]; rfl
    | some c => exact nomatch hf rfl
  | some s =>
    have hs : nameOf (nameTok s) = s := nameOf_name (ht.2.1 s rfl)
    cases c with
    | none =>
      show Model.const (.table none (some (nameOf (nameTok s))) (nameOf (nameTok n))) = _
      rw [hn, hs]; rfl
    | some c =>
      have hc : nameOf (nameTok c) = c := nameOf_name (ht.2.2 c rfl)
      show Model.const (.table (some (nameOf (nameTok c))) (some (nameOf (nameTok s))) (nameOf (nameTok n))) = _
      rw [hn, hs, hc]; rfl

theorem fn_called (f : Fn) : calledName [wordOf f.name] = f.name := by
  show upper (nameOf (wordOf f.name)) = _
  rw [nameOf_word]
  cases f <;> decide +kernel
theorem agg_called (f : Agg) : calledName [wordOf f.name] = f.name := by
  show upper (nameOf (wordOf f.name)) = _
  rw [nameOf_word]
  cases f <;> decide +kernel

theorem rows_mean {n : Option Int} (h : IfAny (fun n => 0 ≤ n) n) :
    (rowsTok n = none ∧ (n = none ∨ n = some 0)) ∨
    ∃ t, rowsTok n = some t ∧ t.kind = .int ∧ n = some (digitsVal t.text : Int) := by
  cases n with
  | none => exact .inl ⟨rfl, .inl rfl⟩
  | some n =>
    have h0 := h n rfl
    unfold rowsTok
    by_cases hn : n = 0
    · left; subst hn; exact ⟨rfl, .inr rfl⟩
    · right
      refine ⟨⟨.int, natStr n.natAbs⟩, by simp [hn], rfl, ?_⟩
      show some n = some ((digitsVal (natStr n.natAbs) : Nat) : Int)
      rw [natStr_val]; congr 1; omega

theorem limit_mean {n : Option Int} (h : IfAny (fun n => 0 ≤ n) n) (hz : n ≠ some 0) (q : M.D) :
    limitMeaning (limitCst (rowsTok n)) q = Model.limited n q := by
  rcases rows_mean h with ⟨a, c⟩ | ⟨t, a, k, c⟩
  · rw [a]
    rcases c with rfl | rfl
    · rfl
    · exact absurd rfl hz
  · rw [a, c]
    show (if t.kind = .int then _ else _) = _
    rw [if_pos k]

theorem offset_mean {n : Option Int} (h : IfAny (fun n => 0 ≤ n) n) (q : M.D) :
    Model.offset (((rowsTok n).map fun t => (t, (none : Option Tok))).map fun p => (digitsVal p.1.text : Int)) q = Model.offset n q := by
  rcases rows_mean h with ⟨a, c⟩ | ⟨t, a, k, c⟩
  · rw [a]
    rcases c with rfl | rfl <;> rfl
  · rw [a, c]; rfl

theorem curTime_mean {f : CurFn} {p : Int} (h0 : 0 ≤ p) : (currentMeaning (kwT f.name) (precCst p) : M.D) = Model.const (.current f.name p) := by
  have hp : (((precCst p).map fun n => (digitsVal n.text : Int)).getD 3) = p := by
    unfold precCst
    by_cases h3 : p = 3
    · rw [if_neg (by simpa using h3)]; exact h3.symm
    · rw [if_pos h3]
      show ((digitsVal (natStr p.natAbs) : Nat) : Int) = p
      rw [natStr_val]; omega
  unfold currentMeaning
  rw [hp]
  cases f <;> rfl

theorem session_mean (f : SessFn) : (sessCst f).mean M = Model.const (.session f.name) := by cases f <;> rfl

theorem item_mean {e : Expr} (ht : e.Tidy true) (ih : e.isStar = false → (e.cst false).mean M = (unalias e).mean M) :
    (itemCst e (e.cst false)).mean M = e.mean M := by
  cases e
  case «alias» v n =>
    rw [Expr_Tidy_alias] at ht
    refine (CItem_mean_expr ..).trans ?_
    rw [ih rfl, Expr_mean_alias]
    show M.op (.alias (nameOf (nameTok n))) _ = _
    rw [nameOf_name ht.2.1]
    rfl
  case star s ty =>
    show (starItem (truthy s)).mean M = _
    rw [Expr_mean_star]
    cases hs : truthy s with
    | none => rfl
    | some w =>
      show Model.const (.star (some (nameOf (wordOf w)))) = _
      rw [nameOf_word]
  case starOf => rw [Expr_Tidy_starOf] at ht; exact ht.elim
  all_goals exact (CItem_mean_expr ..).trans (ih rfl)

/-- A part of a tree. -/
theorem mkid {v : Expr} {neg : Bool} (ht : v.Tidy false)
    (ih : v.isStar = false → (v.cst neg).mean M = nIf neg ((unalias v).mean M)) : (v.cst neg).mean M = nIf neg (v.mean M) := by
  obtain ⟨hu, hs⟩ := unalias_tidy ht
  rw [ih hs, hu]

set_option maxHeartbeats 1600000 in
mutual
theorem mn_expr : ∀ (e : Expr) (item : Bool), e.Tidy item → e.Fits → e.Rows → ∀ neg : Bool, (neg = true → e.negatable = true) →
    e.isStar = false → (e.cst neg).mean M = nIf neg ((unalias e).mean M)
  | .lit v ty, _, ht, hf, hr, neg, hn, _ => by
    cases not_neg hn rfl
    rw [Expr_Tidy_lit] at ht
    rw [Expr_cst_lit, litCst_mean ht]
    exact (Expr_mean_lit M v ty).symm
  | .field n s ty, _, ht, _, hr, neg, hn, _ => by
    cases not_neg hn rfl
    rw [Expr_Tidy_field] at ht
    rw [Expr_cst_field]
    show _ = Expr.mean M (.field n s ty)
    rw [Expr_mean_field]
    cases hs : truthy s with
    | none =>
      show Model.const (.column none (nameOf (nameTok n))) = _
      rw [nameOf_name ht.1]
    | some w =>
      show Model.const (.column (some (nameOf (nameTok w))) (nameOf (nameTok n))) = _
      rw [nameOf_name ht.1, nameOf_name (ht.2 w hs)]
  | .fieldOf _ _ _, _, ht, _, _, _, _, _ => ht.elim
  | .alias v n, _, ht, hf, hr, neg, hn, _ => by
    cases not_neg hn rfl
    rw [Expr_Tidy_alias] at ht
    rw [Expr_Fits_alias] at hf
    rw [Expr_Rows_alias] at hr
    rw [Expr_cst_alias]
    exact mkid ht.2.2 (mn_expr v false ht.2.2 hf hr false nofun)
  | .star _ _, _, _, _, _, _, _, hs => nomatch hs
  | .starOf _ _, _, ht, _, _, _, _, _ => ht.elim
  | .aliasedStar _ _, _, ht, _, _, _, _, _ => ht.elim
  | .var n, _, ht, hf, hr, neg, hn, _ => by
    cases not_neg hn rfl
    rw [Expr_cst_var, CE_mean_col, nameOf_word]
    exact (Expr_mean_var ..).symm
  | .lam ins b, _, ht, hf, hr, neg, hn, _ => by
    cases not_neg hn rfl
    rw [Expr_Tidy_lam] at ht
    rw [Expr_Fits_lam] at hf
    rw [Expr_Rows_lam] at hr
    rw [Expr_cst_lam, CE_mean_lam, nameOf_words, mkid ht.2.2 (mn_expr b false ht.2.2 hf.2.1 hr false nofun)]
    exact (Expr_mean_lam ..).symm
  | .un op v, _, ht, hf, hr, neg, hn, _ => by
    cases not_neg hn rfl
    rw [Expr_Tidy_un] at ht
    rw [Expr_Fits_un] at hf
    rw [Expr_Rows_un] at hr
    rw [Expr_cst_un]
    show _ = Expr.mean M (.un op v)
    rw [Expr_mean_un]
    rcases signCst_cases op ht.1 (needsParen (some 8) v.prec true) with ⟨rfl, h1, h2, c, h3, h4⟩ | ⟨h1, h2⟩
    · rw [h4, CE_mean_num, neg_number_mean ht.1 h1 h3]
      rfl
    · rw [h2, CE_mean_sign, wrapC_mean, mkid ht.1 (mn_expr v false ht.1 hf.1 hr false nofun)]
      cases op <;> rfl
  | .bin op l r, _, ht, hf, hr, neg, hn, _ => by
    rw [Expr_Tidy_bin] at ht
    rw [Expr_Fits_bin] at hf
    rw [Expr_Rows_bin] at hr
    rw [Expr_cst_bin]
    show _ = nIf neg (Expr.mean M (.bin op l r))
    rw [Expr_mean_bin]
    exact binCst_mean ((wrapC_mean ..).trans (mkid ht.1 (mn_expr l false ht.1 hf.1 hr.1 false nofun)))
      ((wrapC_mean ..).trans (mkid ht.2 (mn_expr r false ht.2 hf.2.1 hr.2 false nofun))) hn
  | .not v, _, ht, hf, hr, neg, hn, _ => by
    cases not_neg hn rfl
    rw [Expr_Tidy_not] at ht
    rw [Expr_Fits_not] at hf
    rw [Expr_Rows_not] at hr
    rw [Expr_cst_not]
    show _ = Expr.mean M (.not v)
    rw [Expr_mean_not]
    cases h : v.negatable with
    | true =>
      rw [if_pos rfl]
      exact mkid ht (mn_expr v false ht hf.1 hr true (fun _ => h))
    | false =>
      rw [if_neg (by decide), CE_mean_not_, wrapC_mean, mkid ht (mn_expr v false ht hf.1 hr false nofun)]
      rfl
  | .isNull v, _, ht, hf, hr, neg, hn, _ => by
    rw [Expr_Tidy_isNull] at ht
    rw [Expr_Fits_isNull] at hf
    rw [Expr_Rows_isNull] at hr
    rw [Expr_cst_isNull, CE_mean_isNull, wrapC_mean, mkid ht (mn_expr v false ht hf.1 hr false nofun), not_isNull]
    show _ = nIf neg (Expr.mean M (.isNull v))
    rw [Expr_mean_isNull]
    cases neg <;> rfl
  | .between v l u, _, ht, hf, hr, neg, hn, _ => by
    rw [Expr_Tidy_between] at ht
    rw [Expr_Fits_between] at hf
    rw [Expr_Rows_between] at hr
    rw [Expr_cst_between, CE_mean_between, wrapC_mean, wrapC_mean, wrapC_mean, mkid ht.1 (mn_expr v false ht.1 hf.1 hr.1 false nofun),
      mkid ht.2.1 (mn_expr l false ht.2.1 hf.2.1 hr.2.1 false nofun), mkid ht.2.2 (mn_expr u false ht.2.2 hf.2.2.1 hr.2.2 false nofun), not_between]
    show _ = nIf neg (Expr.mean M (.between v l u))
    rw [Expr_mean_between]
    cases neg <;> rfl
  | .array vs, _, ht, hf, hr, neg, hn, _ => by
    cases not_neg hn rfl
    rw [Expr_Tidy_array] at ht
    rw [Expr_Fits_array] at hf
    rw [Expr_Rows_array] at hr
    rw [Expr_cst_array, CE_mean_array, mn_exprs vs ht hf hr]
    exact (Expr_mean_array ..).symm
  | .inQuery v q, _, ht, hf, hr, neg, hn, _ => by
    rw [Expr_Tidy_inQuery] at ht
    rw [Expr_Fits_inQuery] at hf
    rw [Expr_Rows_inQuery] at hr
    rw [Expr_cst_inQuery, CE_mean_inSub, wrapC_mean, mkid ht.1 (mn_expr v false ht.1 hf.1 hr.1 false nofun), mn_query q ht.2 hf.2.1 hr.2, not_inRows]
    show _ = nIf neg (Expr.mean M (.inQuery v q))
    rw [Expr_mean_inQuery]
    cases neg <;> rfl
  | .inList v es, _, ht, hf, hr, neg, hn, _ => by
    rw [Expr_Tidy_inList] at ht
    rw [Expr_Fits_inList] at hf
    rw [Expr_Rows_inList] at hr
    rw [Expr_cst_inList, CE_mean_inList, wrapC_mean, mkid ht.1 (mn_expr v false ht.1 hf.1 hr.1 false nofun), mn_exprs es ht.2 hf.2.1 hr.2, not_inList]
    show _ = nIf neg (Expr.mean M (.inList v es))
    rw [Expr_mean_inList]
    cases neg <;> rfl
  | .like v p e, _, ht, hf, hr, neg, hn, _ => by
    rw [Expr_Tidy_like] at ht
    rw [Expr_Fits_like] at hf
    rw [Expr_Rows_like] at hr
    rw [Expr_cst_like, CE_mean_like, wrapC_mean, wrapC_mean, mkid ht.1 (mn_expr v false ht.1 hf.1 hr.1 false nofun),
      mkid ht.2.1 (mn_expr p false ht.2.1 hf.2.1 hr.2.1 false nofun), mn_opt e ht.2.2 hf.2.2.1 hr.2.2, not_like]
    show _ = nIf neg (Expr.mean M (.like v p e))
    rw [Expr_mean_like]
    cases neg <;> rfl
  | .typeCtor v s, _, ht, hf, hr, neg, hn, _ => by
    cases not_neg hn rfl
    rw [Expr_Tidy_typeCtor] at ht
    rw [Expr_cst_typeCtor, CE_mean_typeCtor, nameOf_word, stringOf_str ht.1]
    exact (Expr_mean_typeCtor ..).symm
  | .row vs, _, ht, hf, hr, neg, hn, _ => by
    cases not_neg hn rfl
    rw [Expr_Tidy_row] at ht
    rw [Expr_Fits_row] at hf
    rw [Expr_Rows_row] at hr
    rw [Expr_cst_row, CE_mean_row, mn_exprs vs ht hf.1 hr]
    exact (Expr_mean_row ..).symm
  | .interval _ _ _, _, ht, _, _, _, _, _ => ht.elim
  | .cast tr e ty, _, ht, hf, hr, neg, hn, _ => by
    cases not_neg hn rfl
    rw [Expr_Tidy_cast] at ht
    rw [Expr_Fits_cast] at hf
    rw [Expr_Rows_cast] at hr
    rw [Expr_cst_cast, CE_mean_cast, mkid ht (mn_expr e false ht hf.1 hr false nofun)]
    unfold castMeaning
    rw [conv_tyCst ty hf.2.1 hf.2.2]
    exact (Expr_mean_cast ..).symm
  | .subscript v i, _, ht, hf, hr, neg, hn, _ => by
    cases not_neg hn rfl
    rw [Expr_Tidy_subscript] at ht
    rw [Expr_Fits_subscript] at hf
    rw [Expr_Rows_subscript] at hr
    rw [Expr_cst_subscript, CE_mean_subscript, mkid ht.1 (mn_expr v false ht.1 hf.1 hr.1 false nofun),
      mkid ht.2 (mn_expr i false ht.2 hf.2.1 hr.2 false nofun)]
    exact (Expr_mean_subscript ..).symm
  | .case v bs e, _, ht, hf, hr, neg, hn, _ => by
    cases not_neg hn rfl
    rw [Expr_Tidy_case] at ht
    rw [Expr_Fits_case] at hf
    rw [Expr_Rows_case] at hr
    rw [Expr_cst_case, CE_mean_case, mn_whens bs ht.2.2.1 hf.2.1 hr.2.1, mn_opt v ht.1 hf.1 hr.1, mn_opt e ht.2.2.2 hf.2.2 hr.2.2]
    exact (Expr_mean_case ..).symm
  | .func f as, _, ht, hf, hr, neg, hn, _ => by
    cases not_neg hn rfl
    rw [Expr_Tidy_func] at ht
    rw [Expr_Fits_func] at hf
    rw [Expr_Rows_func] at hr
    rw [Expr_cst_func, CE_mean_call, mn_exprs as ht hf.1 hr, fn_called]
    exact (Expr_mean_func ..).symm
  | .agg f as ob fl w ign, _, ht, hf, hr, neg, hn, _ => by
    cases not_neg hn rfl
    rw [Expr_Tidy_agg] at ht
    rw [Expr_Fits_agg] at hf
    rw [Expr_Rows_agg] at hr
    rw [Expr_cst_agg]
    show _ = Expr.mean M (.agg f as ob fl w ign)
    rw [Expr_mean_agg]
    have hw := mn_wopt w ht.2.2.2.2.2 hf.2.2.2.1 hr.2.2.2
    have ho := mn_ords ob ht.2.2.2.1 hf.2.1 hr.2.1
    have hfl := mn_opt fl ht.2.2.2.2.1 hf.2.2.1 hr.2.2.1
    unfold aggCst
    cases hs : isStarArg as with
    | true =>
      rw [if_pos rfl, CE_mean_callStar]
      obtain ⟨rfl, rfl⟩ := ht.2.1 hs
      obtain ⟨s, ty, rfl⟩ := isStarArg_eq hs
      rw [hfl, hw, agg_called, nameOf_opt]
      rfl
    | false =>
      rw [if_neg (by decide), CE_mean_call]
      have h4 := ht.1
      rw [hs] at h4
      rw [hfl, hw, ho, agg_called, mn_exprs as h4 hf.1 hr.1]
      cases ign <;> rfl
  | .listagg v sep ov ob, _, ht, hf, hr, neg, hn, _ => by
    cases not_neg hn rfl
    rw [Expr_Tidy_listagg] at ht
    rw [Expr_Fits_listagg] at hf
    rw [Expr_Rows_listagg] at hr
    rw [Expr_cst_listagg, CE_mean_listagg, sep_mean ht.2.1, overflow_mean ht.2.2.1, mn_ords ob ht.2.2.2 hf.2.1 hr.2,
      mkid ht.1 (mn_expr v false ht.1 hf.1 hr.1 false nofun)]
    exact (Expr_mean_listagg ..).symm
  | .curTime f p, _, ht, hf, hr, neg, hn, _ => by
    cases not_neg hn rfl
    rw [Expr_Tidy_curTime] at ht
    rw [Expr_cst_curTime, CE_mean_dateTime, curTime_mean ht]
    exact (Expr_mean_curTime ..).symm
  | .session f, _, ht, hf, hr, neg, hn, _ => by
    cases not_neg hn rfl
    rw [Expr_cst_session, session_mean]
    exact (Expr_mean_session ..).symm
  | .normalize _ _, _, ht, _, _, _, _, _ => ht.elim
  | .query _, _, ht, _, _, _, _, _ => ht.elim
theorem mn_opt : ∀ (e : Option Expr), Expr.TidyOpt e → Expr.FitsOpt e → Expr.RowsOpt e → CE.meanOpt M (Expr.cstOpt e) = Expr.meanOpt M e
  | none, _, _, _ => rfl
  | some e, ht, hf, hr => by
    rw [Expr_TidyOpt_some] at ht
    rw [Expr_FitsOpt_some] at hf
    rw [Expr_RowsOpt_some] at hr
    rw [Expr_cstOpt_some, CE_meanOpt_some, Expr_meanOpt_some, mkid ht (mn_expr e false ht hf hr false nofun)]
    rfl
theorem mn_wopt : ∀ (w : Option Win), Win.TidyOpt w → Win.FitsOpt w → Win.RowsOpt w → CWin.meanOpt M (Win.cstOpt w) = Win.meanOpt M w
  | none, _, _, _ => rfl
  | some w, ht, hf, hr => by
    rw [Win_TidyOpt_some] at ht
    rw [Win_FitsOpt_some] at hf
    rw [Win_RowsOpt_some] at hr
    rw [Win_cstOpt_some, CWin_meanOpt_some, Win_meanOpt_some, mn_win w ht hf hr]
theorem mn_exprs : ∀ (es : List Expr), Expr.Tidys false es → Expr.Fitss es → Expr.Rowss es → CE.means M (Expr.csts es) = Expr.means M es
  | [], _, _, _ => rfl
  | e :: es, ht, hf, hr => by
    rw [Expr_Tidys_cons] at ht
    rw [Expr_Fitss_cons] at hf
    rw [Expr_Rowss_cons] at hr
    rw [Expr_csts_cons, CE_means_cons, Expr_means_cons, mkid ht.1 (mn_expr e false ht.1 hf.1 hr.1 false nofun), mn_exprs es ht.2 hf.2 hr.2]
    rfl
theorem mn_items : ∀ (es : List Expr), Expr.Tidys true es → Expr.Fitss es → Expr.Rowss es → CItem.means M (Expr.items es) = Expr.means M es
  | [], _, _, _ => rfl
  | e :: es, ht, hf, hr => by
    rw [Expr_Tidys_cons] at ht
    rw [Expr_Fitss_cons] at hf
    rw [Expr_Rowss_cons] at hr
    rw [Expr_items_cons, CItem_means_cons, Expr_means_cons, item_mean ht.1 (mn_expr e true ht.1 hf.1 hr.1 false nofun), mn_items es ht.2 hf.2 hr.2]
theorem mn_whens : ∀ (bs : List (Expr × Expr)), Expr.TidyWhens bs → Expr.FitsWhens bs → Expr.RowsWhens bs →
    CWhen.means M (Expr.cstWhens bs) = Expr.meanWhens M bs
  | [], _, _, _ => rfl
  | (c, v) :: bs, ht, hf, hr => by
    rw [Expr_TidyWhens_cons] at ht
    rw [Expr_FitsWhens_cons] at hf
    rw [Expr_RowsWhens_cons] at hr
    rw [Expr_cstWhens_cons, CWhen_means_cons, Expr_meanWhens_cons, mkid ht.1 (mn_expr c false ht.1 hf.1 hr.1 false nofun),
      mkid ht.2.1 (mn_expr v false ht.2.1 hf.2.1 hr.2.1 false nofun), mn_whens bs ht.2.2 hf.2.2 hr.2.2]
    rfl
theorem mn_ords : ∀ (os : List Ord), Ord.Tidys os → Ord.Fitss os → Ord.Rowss os → CSort.means M (Ord.csts os) = Ord.means M os
  | [], _, _, _ => rfl
  | .mk v d nf :: os, ht, hf, hr => by
    rw [Ord_Tidys_cons, Ord_Tidy_mk] at ht
    rw [Ord_Fitss_cons, Ord_Fits_mk] at hf
    rw [Ord_Rowss_cons, Ord_Rows_mk] at hr
    rw [Ord_csts_cons, Ord_cst_mk, CSort_means_cons, Ord_means_cons, Ord_mean_mk, mkid ht.1 (mn_expr v false ht.1 hf.1 hr.1 false nofun),
      mn_ords os ht.2 hf.2 hr.2]
    cases d <;> cases nf <;> rfl
theorem mn_bound : ∀ (b : Bound), b.Tidy → b.Fits → b.Rows → b.cst.mean M = b.mean M
  | .bounded k e, ht, hf, hr => by
    rw [Bound_Tidy_bounded] at ht
    rw [Bound_Fits_bounded] at hf
    rw [Bound_Rows_bounded] at hr
    rw [Bound_cst_bounded, CBound_mean_bounded, Bound_mean_bounded, mkid ht (mn_expr e false ht hf hr false nofun)]
    cases k <;> rfl
  | .unbounded k, _, _, _ => by cases k <;> rfl
  | .current, _, _, _ => rfl
theorem mn_win : ∀ (w : Win), w.Tidy → w.Fits → w.Rows → w.cst.mean M = w.mean M
  | .mk p ob ps f st en, ht, hf, hr => by
    rw [Win_Tidy_mk] at ht
    rw [Win_Fits_mk] at hf
    rw [Win_Rows_mk] at hr
    rw [Win_cst_mk, CWin_mean_spec, Win_mean_mk, CFrame_mean_between, mn_ords ob ht.2.1 hf.2.1 hr.1, mn_exprs ps ht.2.2.1 hf.2.2.1 hr.2.1,
      mn_bound st ht.2.2.2.1 hf.2.2.2.1 hr.2.2.1, mn_bound en ht.2.2.2.2 hf.2.2.2.2 hr.2.2.2]
    unfold windowMeaning
    dsimp only
    rw [nameOf_opt]
    cases f <;> rfl
theorem mn_lists : ∀ (gs : List (List Expr)), Expr.TidyLists gs → Expr.FitsLists gs → Expr.RowsLists gs →
    CSet.means M (Expr.cstLists gs) = Expr.meanLists M gs
  | [], _, _, _ => rfl
  | vs :: gs, ht, hf, hr => by
    rw [Expr_TidyLists_cons] at ht
    rw [Expr_FitsLists_cons] at hf
    rw [Expr_RowsLists_cons] at hr
    rw [Expr_cstLists_cons, CSet_means_cons, Expr_meanLists_cons, setCst_mean, mn_exprs vs ht.1 hf.1 hr.1, mn_lists gs ht.2 hf.2.2 hr.2]
theorem mn_grp : ∀ (g : Grp), g.Tidy → g.Fits → g.Rows → g.cst.mean M = g.mean M
  | .set vs, ht, hf, hr => by
    rw [Grp_Tidy_set] at ht
    rw [Grp_Fits_set] at hf
    rw [Grp_Rows_set] at hr
    rw [Grp_cst_set, CGrp_mean_single, Grp_mean_set, setCst_mean, mn_exprs vs ht hf.1 hr]
  | .sets gs, ht, hf, hr => by
    rw [Grp_Tidy_sets] at ht
    rw [Grp_Fits_sets] at hf
    rw [Grp_Rows_sets] at hr
    rw [Grp_cst_sets, CGrp_mean_sets, Grp_mean_sets, mn_lists gs ht hf.2 hr]
  | .cube vs, ht, hf, hr => by
    rw [Grp_Tidy_cube] at ht
    rw [Grp_Fits_cube] at hf
    rw [Grp_Rows_cube] at hr
    rw [Grp_cst_cube, CGrp_mean_cube, Grp_mean_cube, mn_exprs vs ht hf hr]
  | .rollup vs, ht, hf, hr => by
    rw [Grp_Tidy_rollup] at ht
    rw [Grp_Fits_rollup] at hf
    rw [Grp_Rows_rollup] at hr
    rw [Grp_cst_rollup, CGrp_mean_rollup, Grp_mean_rollup, mn_exprs vs ht hf hr]
theorem mn_grps : ∀ (gs : List Grp), Grp.Tidys gs → Grp.Fitss gs → Grp.Rowss gs → CGrp.means M (Grp.csts gs) = Grp.means M gs
  | [], _, _, _ => rfl
  | g :: gs, ht, hf, hr => by
    rw [Grp_Tidys_cons] at ht
    rw [Grp_Fitss_cons] at hf
    rw [Grp_Rowss_cons] at hr
    rw [Grp_csts_cons, CGrp_means_cons, Grp_means_cons, mn_grp g ht.1 hf.1 hr.1, mn_grps gs ht.2 hf.2 hr.2]
theorem mn_gopt : ∀ (g : Option GroupBy), GroupBy.TidyOpt g → GroupBy.FitsOpt g → GroupBy.RowsOpt g →
    groupByMeaning (groupQuant g) (CGrp.means M (GroupBy.cstOpt g)) = Model.opt (GroupBy.meanOpt M g)
  | none, _, _, _ => rfl
  | some (.mk gs d), ht, hf, hr => by
    rw [GroupBy_TidyOpt_some, GroupBy_Tidy_mk] at ht
    rw [GroupBy_FitsOpt_some, GroupBy_Fits_mk] at hf
    rw [GroupBy_RowsOpt_some, GroupBy_Rows_mk] at hr
    rw [GroupBy_meanOpt_some, GroupBy_mean_mk, GroupBy_cstOpt_some, GroupBy_cst_mk, mn_grps gs ht.2 hf hr]
    cases gs with
    | nil => exact absurd rfl ht.1
    | cons g gs => cases d <;> rfl
theorem mn_query : ∀ (q : Query), q.Tidy → q.Fits → q.Rows → q.cst.mean M = q.mean M
  | .mk b off lim ob w, ht, hf, hr => by
    rw [Query_Tidy_mk] at ht
    rw [Query_Fits_mk] at hf
    rw [Query_Rows_mk] at hr
    have hb := mn_body b ht.1 hf.1 hr.2.2.2
    rw [Query_cst_mk, Query_mean_mk, hb.2]
    show (CQ.mk false (Named.csts w) (.mk b.cst (Ord.csts ob) _ _)).mean M = _
    rw [CQ_mean_mk, CQN_mean_mk, hb.1, mn_ords ob ht.2.2.2.1 hf.2.1 hr.2.2.1, mn_withs w ht.2.2.2.2 hf.2.2 hr.2.1, offset_mean ht.2.1,
      limit_mean ht.2.2.1 hr.1]
theorem mn_body : ∀ (b : QBody), b.Tidy → b.Fits → b.Rows → b.cst.mean M = b.mean M ∧ b.isSet = false
  | .select items fr wh gb hv d wins, ht, hf, hr => by
    refine ⟨?_, rfl⟩
    rw [QBody_Tidy_select] at ht
    rw [QBody_Fits_select] at hf
    rw [QBody_Rows_select] at hr
    rw [QBody_cst_select, CQT_mean_spec, QBody_mean_select, mn_items items ht.2.1 hf.1 hr.1, mn_ropt fr ht.2.2.1 hf.2.1 hr.2.1,
      mn_opt wh ht.2.2.2.1 hf.2.2.1 hr.2.2.1, mn_gopt gb ht.2.2.2.2.1 hf.2.2.2.1 hr.2.2.2.1, mn_opt hv ht.2.2.2.2.2.1 hf.2.2.2.2.1 hr.2.2.2.2.1,
      mn_wnamed wins ht.2.2.2.2.2.2 hf.2.2.2.2.2.1 hr.2.2.2.2.2]
    cases d <;> rfl
  | .set _ _ _ _, _, hf, _ => hf.elim
  | .table tb, ht, hf, hr => by
    refine ⟨?_, rfl⟩
    rw [QBody_Tidy_table] at ht
    rw [QBody_Fits_table] at hf
    rw [QBody_cst_table, CQT_mean_table, QBody_mean_table, table_mean ht hf]
  | .values es, ht, hf, hr => by
    refine ⟨?_, rfl⟩
    rw [QBody_Tidy_values] at ht
    rw [QBody_Fits_values] at hf
    rw [QBody_Rows_values] at hr
    rw [QBody_cst_values, CQT_mean_values, QBody_mean_values, mn_exprs es ht.2 hf hr]
theorem mn_wnamed : ∀ (ws : List (Str × Win)), Win.TidyNamed ws → Win.FitsNamed ws → Win.RowsNamed ws →
    CWinDef.means M (Win.cstNamed ws) = Win.meanNamed M ws
  | [], _, _, _ => rfl
  | (n, w) :: ws, ht, hf, hr => by
    rw [Win_TidyNamed_cons] at ht
    rw [Win_FitsNamed_cons] at hf
    rw [Win_RowsNamed_cons] at hr
    rw [Win_cstNamed_cons, CWinDef_means_cons, Win_meanNamed_cons, nameOf_word, mn_win w ht.2.1 hf.2.1 hr.1, mn_wnamed ws ht.2.2 hf.2.2 hr.2]
theorem mn_named : ∀ (n : Named), n.Tidy → n.Fits → n.Rows → n.cst.mean M = n.mean M
  | .mk r a cols, ht, hf, hr => by
    rw [Named_Tidy_mk] at ht
    rw [Named_Fits_mk] at hf
    rw [Named_Rows_mk] at hr
    rw [Named_cst_mk, CR_mean_alias, Named_mean_mk, nameOf_name ht.2.1, nameOf_words, mn_rel r ht.1 hf.1 hr]
theorem mn_withs : ∀ (ns : List Named), Named.Tidys ns → Named.Fitss ns → Named.RowsWiths ns →
    CNamed.means M (Named.csts ns) = Named.meanWiths M ns
  | [], _, _, _ => rfl
  | .mk r a cols :: ns, ht, hf, hr => by
    rw [Named_Tidys_cons, Named_TidyWith_mk] at ht
    rw [Named_Fitss_cons, Named_FitsWith_mk] at hf
    rw [Named_RowsWiths_cons, Named_RowsWith_mk] at hr
    rw [Named_csts_cons, Named_cstWith_mk, CNamed_means_cons, Named_meanWiths_cons, Named_meanWith_mk]
    have hrel := mn_rel r ht.1.1 hf.1 hr.1
    obtain ⟨hq, ha, hcols⟩ := ht.1.2
    obtain ⟨q, rfl⟩ := qcst_eq hq
    rw [Rel_cst_query, CR_mean_sub] at hrel
    subst hcols
    rw [mn_withs ns ht.2 hf.2 hr.2, nameOf_name ha, ← hrel]
    rfl
theorem mn_ropt : ∀ (r : Option Rel), Rel.TidyOpt r → Rel.FitsOpt r → Rel.RowsOpt r →
    fromMeaning (CR.means M (Rel.cstOpt r)) = Model.opt (Rel.meanOpt M r)
  | none, _, _, _ => rfl
  | some r, ht, hf, hr => by
    rw [Rel_TidyOpt_some] at ht
    rw [Rel_FitsOpt_some] at hf
    rw [Rel_RowsOpt_some] at hr
    rw [Rel_cstOpt_some, Rel_meanOpt_some]
    exact mn_rel r ht hf hr
theorem mn_rel : ∀ (r : Rel), r.Tidy → r.Fits → r.Rows → r.cst.mean M = r.mean M
  | .table tb, ht, hf, hr => by
    rw [Rel_Tidy_table] at ht
    rw [Rel_Fits_table] at hf
    rw [Rel_cst_table, CR_mean_table, Rel_mean_table, table_mean ht hf]
  | .query q, ht, hf, hr => by
    rw [Rel_Tidy_query] at ht
    rw [Rel_Fits_query] at hf
    rw [Rel_Rows_query] at hr
    rw [Rel_cst_query, CR_mean_sub, Rel_mean_query, mn_query q ht hf hr]
  | .aliased n, ht, hf, hr => by
    rw [Rel_Tidy_aliased] at ht
    rw [Rel_Fits_aliased] at hf
    rw [Rel_Rows_aliased] at hr
    rw [Rel_cst_aliased, Rel_mean_aliased]
    exact mn_named n ht hf hr
  | .join l r k nat cr, ht, hf, hr => by
    rw [Rel_Tidy_join] at ht
    rw [Rel_Fits_join] at hf
    rw [Rel_Rows_join] at hr
    rw [Rel_cst_join, Rel_mean_join]
    have il := mn_rel l ht.1 hf.1 hr.1
    have ir := mn_rel r ht.2.1 hf.2.1 hr.2.1
    have ic := mn_copt cr ht.2.2.2 hf.2.2.1 hr.2.2
    have hk : k ≠ .cross → joinMeaning (joinTypeCst k) = k := by
      intro h
      cases k
      case cross => exact absurd rfl h
      all_goals rfl
    cases cr with
    | some c =>
      rcases ht.2.2.1 with ⟨-, -, h⟩ | ⟨hk', hn⟩
      · exact nomatch h
      replace hn : nat = false := hn
      subst hn
      refine (CR_mean_join ..).trans ?_
      rw [il, ir, hk hk', ic c rfl]
      rfl
    | none =>
      rcases ht.2.2.1 with ⟨rfl, rfl, -⟩ | ⟨hk', hn⟩
      · refine (CR_mean_cross ..).trans ?_
        rw [il, ir]
        rfl
      · replace hn : nat = true := hn
        subst hn
        refine (CR_mean_natural ..).trans ?_
        rw [il, ir, hk hk']
        rfl
  | .unnest as ord, ht, hf, hr => by
    rw [Rel_Tidy_unnest] at ht
    rw [Rel_Fits_unnest] at hf
    rw [Rel_Rows_unnest] at hr
    rw [Rel_cst_unnest, CR_mean_unnest, Rel_mean_unnest, mn_exprs as ht.1 hf.1 hr]
  | .lateral q, ht, hf, hr => by
    rw [Rel_Tidy_lateral] at ht
    rw [Rel_Fits_lateral] at hf
    rw [Rel_Rows_lateral] at hr
    rw [Rel_cst_lateral, CR_mean_lateral, Rel_mean_lateral, mn_query q ht hf hr]
  | .sample r k p, ht, hf, hr => by
    rw [Rel_Tidy_sample] at ht
    rw [Rel_Fits_sample] at hf
    rw [Rel_Rows_sample] at hr
    rw [Rel_cst_sample, CR_mean_sample, Rel_mean_sample, wrapR_mean, mn_rel r ht.1 hf.1 hr.1, mkid ht.2 (mn_expr p false ht.2 hf.2.1 hr.2 false nofun)]
    cases k <;> rfl
theorem mn_copt : ∀ (c : Option Crit), Crit.TidyOpt c → Crit.FitsOpt c → Crit.RowsOpt c → ∀ x, c = some x → x.cst.mean M = x.mean M
  | none, _, _, _, _, h => nomatch h
  | some (.using cols), ht, hf, hr, x, hx => by
    cases hx
    rw [Crit_cst_using, CCrit_mean_using, Crit_mean_using, nameOf_words]
  | some (.on e), ht, hf, hr, x, hx => by
    rw [Crit_TidyOpt_some, Crit_Tidy_on] at ht
    rw [Crit_FitsOpt_some, Crit_Fits_on] at hf
    rw [Crit_RowsOpt_some, Crit_Rows_on] at hr
    cases hx
    rw [Crit_cst_on, CCrit_mean_on, Crit_mean_on, mkid ht (mn_expr e false ht hf hr false nofun)]
    rfl
end

end Treeno
