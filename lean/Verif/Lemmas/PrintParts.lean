import Verif.Lemmas.Tx
import Verif.Lemmas.TidyEqs
import Verif.Lemmas.CstEqs
import Verif.Lemmas.YieldEqs
import Verif.Lemmas.SqlEqs
/-!
# Tokens of printed text: the parts of a node
-/
namespace Treeno
open Spec

/-! ## Numbers -/

theorem Lx.dec (i f : Str) (hi : Spec.Digits i) (hf : ∀ c ∈ f, isDigit c = true) :
    Lx (i ++ '.' :: f) [⟨.dec, i ++ '.' :: f⟩] := by
  obtain ⟨c, s, rfl, hc⟩ := digit_head hi
  intro k rest hr
  have hno : '\n' ∉ c :: s ++ '.' :: f := by
    intro hm
    rcases List.mem_append.1 hm with hm | hm
    · exact absurd (hi.2 _ hm) (by decide)
    · rcases List.mem_cons.1 hm with hm | hm
      · exact absurd hm (by decide)
      · exact absurd (hf _ hm) (by decide)
  rw [ind_plain _ _ hno]
  have h1 : ∀ (w r : Str), (∀ d ∈ w, isDigit d = true) → (w ++ '.' :: r).takeWhile isDigit = w ∧
      (w ++ '.' :: r).dropWhile isDigit = '.' :: r := by
    intro w r hw
    induction w with
    | nil => exact ⟨rfl, rfl⟩
    | cons d w ih =>
      have hd := hw d (by simp)
      obtain ⟨a, b⟩ := ih (fun x hx => hw x (List.mem_cons_of_mem _ hx))
      constructor
      · rw [List.cons_append, List.takeWhile_cons, if_pos hd, a]
      · rw [List.cons_append, List.dropWhile_cons, if_pos hd, b]
  have h2 : ∀ (w r : Str), (∀ d ∈ w, isDigit d = true) → (w ++ '.' :: r).takeWhile isIdChar = w := by
    intro w r hw
    induction w with
    | nil => rfl
    | cons d w ih =>
      have hd := isDigit_isIdChar (hw d (by simp))
      rw [List.cons_append, List.takeWhile_cons, if_pos hd, ih (fun x hx => hw x (List.mem_cons_of_mem _ hx))]
  obtain ⟨a, b⟩ := h1 (c :: s) (f ++ rest) hi.2
  obtain ⟨a2, b2⟩ := takeWhile_safe isDigit f rest hf (fun _ => safe_not_digit) hr
  have hm : mantissa (c :: s ++ '.' :: (f ++ rest)) = (.dec, c :: s ++ '.' :: f, rest) := by
    unfold mantissa
    rw [a, b]
    show (Kind.dec, c :: s ++ '.' :: (f ++ rest).takeWhile isDigit, (f ++ rest).dropWhile isDigit) = _
    rw [a2, b2]
  have hl : lexOne c (s ++ '.' :: (f ++ rest)) = (⟨.dec, c :: s ++ '.' :: f⟩, rest) := by
    rw [lexOne_digit _ hc, lexNumber]
    have : lexNum (c :: (s ++ '.' :: (f ++ rest))) = (⟨.dec, c :: s ++ '.' :: f⟩, rest) := by
      unfold lexNum
      rw [List.cons_append] at hm
      rw [hm]
      simp [exponent_safe hr]
    rw [this]
    have h3 := h2 (c :: s) (f ++ rest) hi.2
    rw [List.cons_append] at h3
    rw [h3, if_neg]
    simp
  have : c :: s ++ '.' :: f ++ rest = c :: (s ++ '.' :: (f ++ rest)) := by simp
  rw [this, toks_step hl]; rfl

/-- The text of a plain decimal. -/
theorem absStr_eq {d : Dec} (h : DecOk d) : ∃ i f, d.absStr = i ++ '.' :: f ∧ Digits i ∧
    (∀ c ∈ f, isDigit c = true) ∧ f.length = (-d.exp).toNat ∧ digitsVal (i ++ f) = d.coeff ∧
    ((i.length + f.length : Nat) : Int) = max ((natStr d.coeff).length : Int) (1 - d.exp) := by
  obtain ⟨h1, h2⟩ := h
  have hD := natStr_digits d.coeff
  have hne := natStr_ne_nil d.coeff
  have hv := natStr_val d.coeff
  have hlen : 0 < (natStr d.coeff).length := List.length_pos_iff.2 hne
  unfold Dec.absStr Dec.str
  simp only
  have hdot : (if d.exp ≤ 0 ∧ d.exp + ((natStr d.coeff).length : Int) > -6 then d.exp + ((natStr d.coeff).length : Int) else 1)
      = d.exp + ((natStr d.coeff).length : Int) := if_pos ⟨by omega, h2⟩
  rw [hdot]
  by_cases h3 : d.exp + ((natStr d.coeff).length : Int) ≤ 0
  · refine ⟨c% "0", List.replicate (-(d.exp + ((natStr d.coeff).length : Int))).toNat '0' ++ natStr d.coeff, ?_, ?_, ?_, ?_, ?_, ?_⟩
    · simp [h3]
    · exact ⟨by simp, by decide⟩
    · intro c hc
      rcases List.mem_append.1 hc with hc | hc
      · rw [(List.mem_replicate.1 hc).2]; decide
      · exact hD c hc
    · simp only [List.length_append, List.length_replicate]; omega
    · have : ∀ n : Nat, digitsValAcc 0 (List.replicate n '0' ++ natStr d.coeff) = d.coeff := by
        intro n
        induction n with
        | zero => exact hv
        | succ n ih => exact ih
      exact this (_ + 1)
    · simp only [List.length_append, List.length_replicate, List.length_cons, List.length_nil]; omega
  · have h4 : ¬ (d.exp + ((natStr d.coeff).length : Int) ≥ ((natStr d.coeff).length : Int)) := by omega
    refine ⟨(natStr d.coeff).take (d.exp + ((natStr d.coeff).length : Int)).toNat,
      (natStr d.coeff).drop (d.exp + ((natStr d.coeff).length : Int)).toNat, ?_, ⟨?_, ?_⟩, ?_, ?_, ?_, ?_⟩
    · simp [h3, h4]
    · intro h
      have := congrArg List.length h
      simp only [List.length_take, List.length_nil] at this
      omega
    · intro c hc; exact hD c (List.mem_of_mem_take hc)
    · intro c hc; exact hD c (List.mem_of_mem_drop hc)
    · simp only [List.length_drop]; omega
    · rw [List.take_append_drop]; exact hv
    · simp only [List.length_take, List.length_drop]; omega

theorem digits_bg {i : Str} (h : Digits i) (r : Str) : Bg (i ++ r) = true := by
  obtain ⟨c, s, rfl, hc⟩ := digit_head h
  simp only [Bg, List.cons_append, Bool.and_eq_true, bne_iff_ne]
  refine ⟨⟨?_, ?_⟩, ?_⟩ <;> (rintro rfl; exact absurd hc (by decide))

theorem Tx.decAbs {d : Dec} (h : DecOk d) : Tx d.absStr [⟨.dec, d.absStr⟩] := by
  obtain ⟨i, f, e, hi, hf, -, -⟩ := absStr_eq h
  have hnb : nb d.absStr := nb_dec _
  rw [e] at hnb ⊢
  exact ⟨.ofLx (Lx.dec i f hi hf) (.of_nb hnb), Ends.of_nb hnb (by simp), .inl (digits_bg hi _)⟩

theorem Dec.str_eq (d : Dec) : d.str = (if d.neg then c% "-" else []) ++ d.absStr := by
  unfold Dec.absStr Dec.str
  simp only [List.append_assoc, if_neg (show ¬ (false = true) by decide), List.nil_append, Bool.false_eq_true, if_false]

theorem tx_lit {v : Option Scalar} (h : LitOk v) : Tx (litText v) (litCst v).yield := by
  match v, h with
  | none, _ => exact Tx.kw (by decide +kernel)
  | some (.bool true), _ => exact Tx.kw (by decide +kernel)
  | some (.bool false), _ => exact Tx.kw (by decide +kernel)
  | some (.int n), _ =>
    rw [litCst, CE_yield_num]; exact Tx.int n
  | some (.dec d), h =>
    rw [litCst, CE_yield_num, litText, Dec.str_eq]
    have := Tx.decAbs h
    cases d.neg with
    | false => exact this
    | true => exact this.minus (fun us e => by cases e)
  | some (.str s), h => 
    rw [litCst, CE_yield_str]; exact Tx.string h

/-! ## Operators -/

theorem pemdas_eq (cur val : Option Nat) (l : Bool) (s d : Except Err Str) :
    pemdas cur val l s d = if needsParen cur val l then parenS <$> d else s := by
  cases cur with
  | none => rfl
  | some c =>
    cases val with
    | none => rfl
    | some v =>
      unfold pemdas needsParen
      by_cases h : c = v
      · simp only [if_pos h]; cases l <;> rfl
      · simp only [if_neg h]
        by_cases h2 : v < c
        · simp [h2]
        · simp [h2]

theorem wrapC_yield (b : Bool) (c : CE) : (wrapC b c).yield = if b then inParens c.yield else c.yield := by
  unfold wrapC; cases b
  · rfl
  · rw [if_pos rfl, if_pos rfl, CE_yield_paren]

theorem tx_pemdas {cur val : Option Nat} {l : Bool} {s d : Except Err Str} {r : Str} {c : CE}
    (hs : ∀ x, s = .ok x → Tx x c.yield) (hd : ∀ x, d = .ok x → Tx x c.yield)
    (h : pemdas cur val l s d = .ok r) : Tx r (wrapC (needsParen cur val l) c).yield := by
  rw [pemdas_eq] at h
  rw [wrapC_yield]
  cases hb : needsParen cur val l with
  | false => rw [hb] at h; exact hs _ h
  | true =>
    rw [hb, if_pos rfl] at h
    cases d with
    | error e => cases h
    | ok x =>
      cases h
      exact Tx.paren (hd x rfl).px

theorem sign_yield (op : UnOp) (c : CE) : (signCst op c).yield = symT op.text :: c.yield := by
  unfold signCst
  split
  · rw [CE_yield_num, CE_yield_num]; rfl
  · rw [CE_yield_sign]

theorem tx_spaced (o : Opts) {w : Str} (hw : (simple false w && endOK w && toks w == [kwT (w.dropLast)]) = true) :
    Px true (spacing o ++ w) [kwT w.dropLast] := (Px.spacing o).app (Px.lit w _ hw) (.inl rfl)

theorem tx_bin {neg : Bool} {op : BinOp} {o : Opts} {a b : Str} {l r : CE} (ha : Tx a l.yield) (hb : Tx b r.yield) :
    Tx (binText o neg (if neg then op.flip else op) a b) (binCst neg op l r).yield := by
  have h1 := fun c hc => ha.infix (Px.op1 c hc) rfl hb
  have h2 := fun c d hc => ha.infix (Px.op2 c d hc) rfl hb
  cases op with
  | add => cases neg <;> (rw [binCst, CE_yield_arith]; exact h1 '+' (by decide))
  | sub => cases neg <;> (rw [binCst, CE_yield_arith]; exact h1 '-' (by decide))
  | mul => cases neg <;> (rw [binCst, CE_yield_arith]; exact h1 '*' (by decide))
  | div => cases neg <;> (rw [binCst, CE_yield_arith]; exact h1 '/' (by decide))
  | mod => cases neg <;> (rw [binCst, CE_yield_arith]; exact h1 '%' (by decide))
  | eq =>
    cases neg
    · rw [binCst, CE_yield_cmp]; exact h1 '=' (by decide)
    · rw [binCst, CE_yield_cmp]; exact h2 '<' '>' (by decide)
  | ne =>
    cases neg
    · rw [binCst, CE_yield_cmp]; exact h2 '<' '>' (by decide)
    · rw [binCst, CE_yield_cmp]; exact h1 '=' (by decide)
  | gt => cases neg <;> (rw [binCst, CE_yield_cmp]; exact h1 '>' (by decide))
  | ge => cases neg <;> (rw [binCst, CE_yield_cmp]; exact h2 '>' '=' (by decide))
  | lt => cases neg <;> (rw [binCst, CE_yield_cmp]; exact h1 '<' (by decide))
  | le => cases neg <;> (rw [binCst, CE_yield_cmp]; exact h2 '<' '=' (by decide))
  | and =>
    have : Tx (a ++ (spacing o ++ c% "AND ") ++ b) (l.yield ++ ([kwT (c% "AND")] ++ r.yield)) :=
      ha.infix (tx_spaced o (w := c% "AND ") (by decide +kernel)) (safe_spacing o _) hb
    rw [← List.append_assoc] at this
    cases neg <;> (rw [binCst, CE_yield_and_]; exact this)
  | or =>
    have : Tx (a ++ (spacing o ++ c% "OR ") ++ b) (l.yield ++ ([kwT (c% "OR")] ++ r.yield)) :=
      ha.infix (tx_spaced o (w := c% "OR ") (by decide +kernel)) (safe_spacing o _) hb
    rw [← List.append_assoc] at this
    cases neg <;> (rw [binCst, CE_yield_or_]; exact this)
  | distinct =>
    cases neg
    · rw [binCst, CE_yield_distinct]
      exact ha.infix (Px.lit (c% " IS DISTINCT FROM ") [kwT (c% "IS"), kwT (c% "DISTINCT"), kwT (c% "FROM")] (by decide +kernel)) rfl hb
    · rw [binCst, CE_yield_distinct]
      exact ha.infix (Px.lit (c% " IS NOT DISTINCT FROM ") [kwT (c% "IS"), kwT (c% "NOT"), kwT (c% "DISTINCT"), kwT (c% "FROM")] (by decide +kernel)) rfl hb

/-- `[NOT] KEYWORD` between two texts. -/
theorem px_not (neg : Bool) {w : Str} {ts : List Tok} (hw : (simple false w && endOK w && toks w == ts) = true)
    (hn : (simple false (c% " NOT" ++ w) && endOK (c% " NOT" ++ w) && toks (c% " NOT" ++ w) == kwT (c% "NOT") :: ts) = true) :
    Px true (notText neg ++ w) (flag neg [kwT (c% "NOT")] ++ ts) := by
  cases neg
  · exact Px.lit w ts hw
  · exact Px.lit _ _ hn

theorem safe_not (neg : Bool) {w : Str} (hw : SafeHd w = true) : SafeHd (notText neg ++ w) = true := by
  cases neg
  · exact hw
  · rfl

/-! ## The first token -/

/-- What a token is the start of. -/
def tokFirst (t : Tok) : First :=
  if t = symT (c% "-") then .dash
  else if t = symT (c% "(") then .paren
  else match t.kind with
    | .int => .num
    | .dec => .num
    | .dbl => .num
    | _ => .other

/-- The tokens start with a token of this class. -/
def StartsF (ts : List Tok) (f : First) : Prop := ∃ t us, ts = t :: us ∧ tokFirst t = f

theorem StartsF.app {ts us : List Tok} {f : First} (h : StartsF ts f) : StartsF (ts ++ us) f := by
  obtain ⟨t, r, rfl, h⟩ := h
  exact ⟨t, r ++ us, rfl, h⟩
theorem StartsF.of {t : Tok} {f : First} (h : tokFirst t = f) (us : List Tok) : StartsF (t :: us) f := ⟨t, us, rfl, h⟩

theorem tokFirst_kw (w : Str) : tokFirst (kwT w) = .other := by simp [tokFirst, kwT, symT]
theorem tokFirst_word (w : Str) : tokFirst (wordOf w) = .other := by
  unfold wordOf tokFirst symT
  split <;> simp_all
theorem tokFirst_name (w : Str) : tokFirst (nameTok w) = .other := by simp [tokFirst, nameTok, symT]

theorem starts_lit {v : Option Scalar} (h : LitOk v) : StartsF (litCst v).yield (litFirst v) := by
  match v, h with
  | none, _ => exact .of (tokFirst_kw _) _
  | some (.bool true), _ => exact .of (tokFirst_kw _) _
  | some (.bool false), _ => exact .of (tokFirst_kw _) _
  | some (.int n), _ =>
    rw [litCst, CE_yield_num, litFirst]
    by_cases hn : n < 0
    · rw [if_pos hn, decide_eq_true hn]; exact .of rfl _
    · rw [if_neg hn, decide_eq_false hn]
      exact .of (by simp [tokFirst, symT]) _
  | some (.dec d), _ =>
    rw [litCst, CE_yield_num, litFirst]
    cases d.neg
    · exact .of (by simp [tokFirst, symT]) _
    · exact .of rfl _
  | some (.str s), _ => exact .of (by simp [tokFirst, symT, strTok, litFirst]) _

theorem starts_wrap {b : Bool} {c : CE} {f : First} (h : StartsF c.yield f) :
    StartsF (wrapC b c).yield (if b then .paren else f) := by
  rw [wrapC_yield]
  cases b
  · exact h
  · exact .of rfl _

theorem starts_bin {neg : Bool} {op : BinOp} {l r : CE} {f : First} (h : StartsF l.yield f) :
    StartsF (binCst neg op l r).yield f := by
  cases op <;> simp only [binCst, CE_yield_arith, CE_yield_cmp, CE_yield_and_, CE_yield_or_, CE_yield_distinct] <;> exact h.app

/-- The first token of the text is the one that `first` predicts. -/
theorem starts : ∀ (e : Expr) (neg : Bool), e.Tidy false → StartsF (e.cst neg).yield e.first
  | .lit v t, neg, h => by
    rw [Expr_Tidy_lit] at h
    rw [Expr_cst_lit]; exact starts_lit h
  | .field n t ty, neg, _ => by
    rw [Expr_cst_field]
    cases truthy t with
    | none => rw [fieldCst, CE_yield_col]; exact .of (tokFirst_name _) _
    | some t => rw [fieldCst, CE_yield_deref, CE_yield_col]; exact .of (tokFirst_name _) _
  | .fieldOf _ _ _, _, h => h.elim
  | .alias _ _, _, h => by rw [Expr_Tidy_alias] at h; exact absurd h.1 (by decide)
  | .star _ _, _, h => by rw [Expr_Tidy_star] at h; exact absurd h.1 (by decide)
  | .starOf _ _, _, h => h.elim
  | .aliasedStar _ _, _, h => h.elim
  | .var n, _, _ => by rw [Expr_cst_var, CE_yield_col]; exact .of (tokFirst_word _) _
  | .lam ins b, _, h => by
    rw [Expr_Tidy_lam] at h
    rw [Expr_cst_lam, CE_yield_lam]
    obtain ⟨n, ns, rfl⟩ := List.exists_cons_of_ne_nil h.1
    unfold lamIds
    rw [Expr.first]
    by_cases hl : (n :: ns).length > 1
    · rw [if_pos hl, decide_eq_true hl]; exact .of rfl _
    · rw [if_neg hl, decide_eq_false hl]; exact .of (tokFirst_word _) _
  | .un op v, _, _ => by
    rw [Expr_cst_un, sign_yield]
    cases op <;> exact .of rfl _
  | .bin op l r, neg, h => by
    rw [Expr_Tidy_bin] at h
    rw [Expr_cst_bin]
    exact starts_bin (starts_wrap (starts l false h.1))
  | .not v, _, h => by
    rw [Expr_Tidy_not] at h
    rw [Expr_cst_not, Expr.first]
    cases hv : v.negatable with
    | true => exact starts v true h
    | false =>
      rw [if_neg (by decide), if_neg (by decide), CE_yield_not_]
      exact .of (tokFirst_kw _) _
  | .isNull v, _, h => by
    rw [Expr_Tidy_isNull] at h
    rw [Expr_cst_isNull, CE_yield_isNull]
    exact (starts_wrap (starts v false h)).app
  | .between v l u, _, h => by
    rw [Expr_Tidy_between] at h
    rw [Expr_cst_between, CE_yield_between]
    exact (starts_wrap (starts v false h.1)).app
  | .array _, _, _ => by rw [Expr_cst_array, CE_yield_array]; exact .of (tokFirst_kw _) _
  | .inQuery v q, _, h => by
    rw [Expr_Tidy_inQuery] at h
    rw [Expr_cst_inQuery, CE_yield_inSub]
    exact (starts_wrap (starts v false h.1)).app
  | .inList v es, _, h => by
    rw [Expr_Tidy_inList] at h
    rw [Expr_cst_inList, CE_yield_inList]
    exact (starts_wrap (starts v false h.1)).app
  | .like v p e, _, h => by
    rw [Expr_Tidy_like] at h
    rw [Expr_cst_like, CE_yield_like]
    exact (starts_wrap (starts v false h.1)).app
  | .typeCtor v t, _, _ => by rw [Expr_cst_typeCtor, CE_yield_typeCtor]; exact .of (tokFirst_word _) _
  | .row vs, _, _ => by rw [Expr_cst_row, CE_yield_row]; exact .of rfl _
  | .interval _ _ _, _, h => h.elim
  | .cast tr e t, _, _ => by rw [Expr_cst_cast, CE_yield_cast]; exact .of (tokFirst_kw _) _
  | .subscript v i, _, h => by
    rw [Expr_Tidy_subscript] at h
    rw [Expr_cst_subscript, CE_yield_subscript]
    exact (starts v false h.1).app
  | .case v bs e, _, _ => by rw [Expr_cst_case, CE_yield_case]; exact .of (tokFirst_kw _) _
  | .func f as, _, _ => by rw [Expr_cst_func, CE_yield_call]; exact .of (tokFirst_word _) _
  | .agg f as ob fl w ign, _, _ => by
    rw [Expr_cst_agg]
    unfold aggCst
    split
    · rw [CE_yield_callStar]; exact .of (tokFirst_word _) _
    · rw [CE_yield_call]; exact .of (tokFirst_word _) _
  | .listagg v sep ov ob, _, _ => by rw [Expr_cst_listagg, CE_yield_listagg]; exact .of (tokFirst_kw _) _
  | .curTime f p, _, _ => by rw [Expr_cst_curTime, CE_yield_dateTime]; exact .of (tokFirst_kw _) _
  | .session f, _, _ => by
    rw [Expr_cst_session]
    cases f <;> first
      | (rw [sessCst, CE_yield_dateTime]; exact .of (tokFirst_kw _) _)
      | (unfold sessCst; rw [CE_yield_session]; exact .of (tokFirst_kw _) _)
  | .normalize _ _, _, h => h.elim
  | .query _, _, h => h.elim

theorem StartsF.not_dash {ts : List Tok} {f : First} (h : StartsF ts f) (hf : f ≠ .dash) :
    ∀ us, ts ≠ symT (c% "-") :: us := by
  obtain ⟨t, r, rfl, rfl⟩ := h
  rintro us e
  cases e
  exact hf rfl
theorem StartsF.not_paren {ts : List Tok} {f : First} (h : StartsF ts f) (hf : f ≠ .paren) :
    ∀ us, ts ≠ symT (c% "(") :: us := by
  obtain ⟨t, r, rfl, rfl⟩ := h
  rintro us e
  cases e
  exact hf rfl
theorem StartsF.not_num {ts : List Tok} {f : First} (h : StartsF ts f) (hf : f ≠ .num) :
    ∀ t us, ts = t :: us → ¬ (t.kind = .int ∨ t.kind = .dec ∨ t.kind = .dbl) := by
  obtain ⟨t, r, rfl, rfl⟩ := h
  rintro t' us e hk
  cases e
  apply hf
  have h1 : t ≠ symT (c% "-") := by rintro rfl; simp [symT] at hk
  have h2 : t ≠ symT (c% "(") := by rintro rfl; simp [symT] at hk
  unfold tokFirst
  rw [if_neg h1, if_neg h2]
  rcases hk with hk | hk | hk <;> rw [hk]

/-! ## Lists of words and small clauses -/

theorem txl_words : ∀ ws : List Str, (∀ w ∈ ws, IsWord w) → TxL ws (ws.map fun w => [wordOf w])
  | [], _ => .nil
  | w :: ws, h => .cons (Tx.word (h w (by simp))) (txl_words ws fun x hx => h x (List.mem_cons_of_mem _ hx))

theorem map_words (ws : List Str) : ((ws.map wordOf).map fun t => [t]) = ws.map fun w => [wordOf w] := by
  rw [List.map_map]; rfl

theorem tx_lam {ins : List Str} {o : Opts} {i s : Str} {c : CE} (hne : ins ≠ []) (hw : ∀ n ∈ ins, IsWord n)
    (hi : joinStmts ins o = .ok i) (h : Tx s c.yield) :
    Tx ((if ins.length > 1 then parenS i else i) ++ c% " -> " ++ s)
      (CE.lam (decide (ins.length > 1)) (ins.map wordOf) c).yield := by
  have h1 := tx_commas (txl_words ins hw) hi hne
  rw [CE_yield_lam]
  unfold lamIds
  rw [map_words]
  by_cases hl : ins.length > 1
  · rw [if_pos hl, decide_eq_true hl]
    exact (Tx.paren h1.px).infix (Px.op2 '-' '>' (by decide)) rfl h
  · rw [if_neg hl, decide_eq_false hl]
    match ins, hne, hl, h1 with
    | [n], _, _, h1 => exact h1.infix (Px.op2 '-' '>' (by decide)) rfl h
    | _ :: _ :: _, _, hl, _ => exact absurd (by simp) hl

theorem tx_cols {o : Opts} {cols : List Str} {s : Str} (hw : ∀ n ∈ cols, IsWord n)
    (h : colsText o (c% " (") (c% ")") cols = .ok s) : (s = [] ∧ cols = []) ∨
      (Px false s (columns (cols.map wordOf)) ∧ SafeHd s = true ∧ Ends s) := by
  unfold colsText at h
  split at h
  · rename_i he; cases h; exact .inl ⟨rfl, List.isEmpty_iff.1 he⟩
  · rename_i he
    obtain ⟨j, hj, h⟩ := bind_ok h
    cases h
    right
    have h1 := px_commas (txl_words cols hw) hj
    have h2 := Tx.wrap (Px.lit (c% " (") [symT (c% "(")] (by decide +kernel)) rfl h1 Px.rpar rfl (Ends.of rfl)
    refine ⟨h2.px.cast ?_, rfl, h2.ends⟩
    unfold columns
    rw [if_neg (by simpa using he), map_words]; rfl

theorem tx_name_list {ns : List Str} (hne : ns ≠ []) (h : ∀ m ∈ ns, NameOk m) :
    Tx (join (c% ".") (ns.map quoteIdent)) (qname (ns.map nameTok)) := by
  obtain ⟨n, ns, rfl⟩ := List.exists_cons_of_ne_nil hne
  exact Tx.names n ns h

theorem tx_table {t : TableRef} (h : TableOk t) : Tx t.sql (qname t.nameToks) := by
  obtain ⟨h1, h2, h3⟩ := h
  refine tx_name_list (ns := [t.catalog, t.schema, some t.name].filterMap id) ?_ ?_
  · cases t.catalog <;> cases t.schema <;> simp
  · intro m hm
    simp only [List.mem_filterMap, List.mem_cons, List.not_mem_nil, or_false, id] at hm
    obtain ⟨a, rfl | rfl | rfl, e⟩ := hm
    · exact h3 m e
    · exact h2 m e
    · cases e; exact h1

theorem tx_field {n : Str} {t : Option Str} (h1 : NameOk n) (h2 : IfAny NameOk t) :
    Tx (chainIdents [t, some n]) (fieldCst n t).yield := by
  cases t with
  | none => rw [fieldCst, CE_yield_col]; exact Tx.name h1
  | some t =>
    rw [fieldCst, CE_yield_deref, CE_yield_col]
    have := tx_name_list (ns := [t, n]) (by simp) (by
      intro m hm
      simp only [List.mem_cons, List.not_mem_nil, or_false] at hm
      rcases hm with rfl | rfl
      · exact h2 _ rfl
      · exact h1)
    exact this

/-- `word.*` -/
theorem tx_star {t : Option Str} (h : IfAny IsWord (truthy t)) :
    Tx (starPrefix t ++ c% "*") (starItem (truthy t)).yield := by
  unfold starPrefix
  cases ht : truthy t with
  | none =>
    rw [starItem, CItem_yield_all]
    have := Px.lit (c% "*") [symT (c% "*")] (by decide +kernel)
    exact ⟨this.weak, Ends.of rfl, .inl rfl⟩
  | some w =>
    rw [starItem, CItem_yield_allOf, CE_yield_col]
    have hw := h w ht
    have hnb : nb (w ++ c% ".*") := nb_app hw.nb (by decide)
    obtain ⟨c, s, rfl, h1, h2⟩ := hw
    show Tx (c :: s ++ c% "." ++ c% "*") _
    rw [List.append_assoc]
    change Tx (c :: s ++ c% ".*") _
    refine ⟨.ofLx (fun k rest hr => ?_) (.of_nb hnb), Ends.of_nb hnb (by simp), .inl (isIdStart_bg h1 _)⟩
    rw [ind_plain _ _ (nb_no_nl hnb)]
    have htw : ∀ w r : Str, (∀ d ∈ w, isIdChar d = true) → (w ++ '.' :: r).takeWhile isIdChar = w ∧
        (w ++ '.' :: r).dropWhile isIdChar = '.' :: r := by
      intro w r hw
      induction w with
      | nil => exact ⟨rfl, rfl⟩
      | cons d w ih =>
        have hd := hw d (by simp)
        obtain ⟨a, b⟩ := ih (fun x hx => hw x (List.mem_cons_of_mem _ hx))
        constructor
        · rw [List.cons_append, List.takeWhile_cons, if_pos hd, a]
        · rw [List.cons_append, List.dropWhile_cons, if_pos hd, b]
    obtain ⟨a, b⟩ := htw (c :: s) ('*' :: rest) (fun d hd => by
      rcases List.mem_cons.1 hd with rfl | hd
      · exact isIdStart_isIdChar h1
      · exact h2 d hd)
    have hl : lexOne c (s ++ '.' :: '*' :: rest) = (wordOf (c :: s), '.' :: '*' :: rest) := by
      have hl : lexWord (c :: (s ++ '.' :: '*' :: rest)) = wordTok (c :: (s ++ '.' :: '*' :: rest)) := by
        unfold lexWord
        split
        · rename_i r' heq
          injection heq with ha hb
          exfalso
          cases s with
          | nil => cases hb
          | cons d w =>
            have := h2 d (by simp)
            injection hb with hb _
            rw [hb] at this; exact absurd this (by decide)
        · rename_i r' heq
          injection heq with ha hb
          exfalso
          cases s with
          | nil => cases hb
          | cons d w =>
            have := h2 d (by simp)
            injection hb with hb _
            rw [hb] at this; exact absurd this (by decide)
        · rfl
      rw [lexOne_id _ h1, hl]
      unfold wordTok wordOf
      rw [List.cons_append] at a b
      rw [a, b]
    have e : c :: s ++ c% ".*" ++ rest = c :: (s ++ '.' :: '*' :: rest) := by simp
    rw [e, toks_step hl, if_pos (by unfold wordOf; cases isKeyword (c :: s) <;> rfl)]
    show _ :: toks ('.' :: ('*' :: rest)) = _
    rw [toks_dot]
    · have := (Px.lit (c% "*") [symT (c% "*")] (by decide +kernel)).lx 0 rest (.inl rfl)
      rw [ind_zero] at this
      show _ :: _ :: toks (c% "*" ++ rest) = _
      rw [this]; rfl
    · intro d hd; cases hd; decide

end Treeno
