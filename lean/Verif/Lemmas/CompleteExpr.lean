import Verif.Lemmas.Stops
/-!
# Plain expressions are read back: the cases
-/
set_option linter.unusedSimpArgs false
set_option linter.unusedVariables false
namespace Treeno
open Spec

/-! ## Conditions -/

theorem ite_t {α : Type} {c : Bool} {a b x : α} (h : c = true) (h2 : a = x) : (if c = true then a else b) = x := by
  rw [if_pos h, h2]

theorem ite_f {α : Type} {c : Bool} {a b x : α} (h : c = false) (h2 : b = x) : (if c = true then a else b) = x := by
  rw [if_neg (by simp [h]), h2]

theorem bind_s {α β : Type} {x : Option α} {f : α → Option β} {a : α} {y : Option β} (h : x = some a) (h2 : f a = y) :
    (x >>= f) = y := by rw [h]; exact h2

/-! ## Lists -/

theorem sep_ok {α : Type} {item : List Tok → Option (α × List Tok)} {more : List Tok → Option (List α × List Tok)}
    (hm : ∀ ts, more ts = pSep item more ts) (y : α → List Tok) (F : List Tok → Prop)
    (hF : ∀ ts, F (symT (c% ",") :: ts)) : ∀ es : List α, es ≠ [] →
    (∀ e ∈ es, ∀ rest, F rest → item (y e ++ rest) = some (e, rest)) → ∀ rest, F rest → sym (c% ",") rest = none →
    more (commas (es.map y) ++ rest) = some (es, rest)
  | [], h, _, _, _, _ => absurd rfl h
  | [e], _, h, rest, hr, hc => by
    rw [hm, pSep]
    show (item (y e ++ rest)).bind _ = _
    rw [h e (by simp) rest hr]
    show (match sym (c% ",") rest with | none => _ | some ts => _) = _
    rw [hc]
  | e :: e' :: es, _, h, rest, hr, hc => by
    rw [hm, pSep]
    have ih := sep_ok hm y F hF (e' :: es) (by simp) (fun x hx => h x (by simp at hx ⊢; exact .inr hx)) rest hr hc
    have hs : commas ((e :: e' :: es).map y) ++ rest = y e ++ symT (c% ",") :: (commas ((e' :: es).map y) ++ rest) := by
      simp [commas, sepBy]
    rw [hs]
    simp only [h e (by simp) _ (hF _), Option.bind_eq_bind, Option.bind_some]
    rw [show sym (c% ",") (symT (c% ",") :: (commas ((e' :: es).map y) ++ rest)) = some (commas ((e' :: es).map y) ++ rest) from rfl]
    simp only [ih, Option.bind_some]

theorem yields_map : ∀ es : List CE, CE.yields es = es.map CE.yield
  | [] => rfl
  | e :: es => by rw [CE_yields_cons, yields_map es]; rfl

/-- What may follow a list of expressions. -/
def End (rest : List Tok) : Prop := Stop 0 rest ∧ sym (c% ",") rest = none

theorem End.tok {t : Tok} {ts : List Tok} (h : t.frank = none) (h2 : t.isSym (c% ",") = false) : End (t :: ts) :=
  ⟨Stop.free h, by simp [sym, h2]⟩

theorem End.nil : End [] := ⟨trivial, rfl⟩

theorem frank_rpar : (symT (c% ")")).frank = none := by decide +kernel
theorem frank_rbra : (symT (c% "]")).frank = none := by decide +kernel
theorem frank_comma : (symT (c% ",")).frank = none := by decide +kernel

theorem End.rpar {ts : List Tok} : End (symT (c% ")") :: ts) := End.tok frank_rpar rfl
theorem End.rbra {ts : List Tok} : End (symT (c% "]") :: ts) := End.tok frank_rbra rfl

theorem exprs_ok {es : List CE} (hne : es ≠ []) (h : ∀ e ∈ es, Good e) {rest : List Tok} (hr : End rest) :
    P .exprs (commas (CE.yields es) ++ rest) = some (es, rest) := by
  rw [yields_map]
  exact sep_ok P_exprs CE.yield (Stop 0) (fun ts => Stop.free frank_comma) es hne
    (fun e he rest hs => (h e he).full 0 (by omega) rest hs) rest hr.1 hr.2

theorem sym_same (s : Str) (ts : List Tok) : sym s (symT s :: ts) = some ts := by
  simp [sym, Tok.isSym, symT]

theorem args_ok {es : List CE} (hp : CE.Plains es) (h : ∀ e ∈ es, Good e) (rest : List Tok) :
    pArgs P (c% ")") (commas (CE.yields es) ++ symT (c% ")") :: rest) = some (es, rest) := by
  cases es with
  | nil => rfl
  | cons e es =>
    have hh := (CE.starts (e :: es) (by simp) hp (symT (c% ")") :: rest) rfl).1
    rw [pArgs, hh.notRpar]
    simp only [exprs_ok (by simp) h End.rpar, Option.bind_eq_bind, Option.bind_some, sym_same]

theorem args_ok' {es : List CE} (hp : CE.Plains es) (h : ∀ e ∈ es, Good e) (rest : List Tok) :
    pArgs P (c% "]") (commas (CE.yields es) ++ symT (c% "]") :: rest) = some (es, rest) := by
  cases es with
  | nil => rfl
  | cons e es =>
    have hh := (CE.starts (e :: es) (by simp) hp (symT (c% "]") :: rest) rfl).1
    rw [pArgs, hh.notRbra]
    simp only [exprs_ok (by simp) h End.rbra, Option.bind_eq_bind, Option.bind_some, sym_same]

/-! ## Operators -/

theorem good_bin {c l r : CE} {k : Nat} {t : Tok} {f : CE → CE → CE} (hc : c.Plain) (hk : k = c.rank) (hb : isBin k)
    (hf : binOp k t = some f) (hfc : f l r = c) (hy : c.yield = l.yield ++ t :: r.yield) (hl : Good l)
    (hlam : l.isLam = false) (hlk : k ≤ l.rank) (hr : Good r) (hrk : k + 1 ≤ r.rank) : Good c := by
  refine Good.ofReach hc hk hb fun rest hs => ?_
  rw [hy, List.append_assoc, List.cons_append,
    hl.reach hlam k hb hlk _ (Stop.lt (binOp_frank hb hf) (by omega)), loop_bin k hb, pBinLoop, hf]
  simp only [hr.full (k + 1) hrk rest hs, Option.bind_eq_bind, Option.bind_some]
  rw [hfc]

theorem good_not {v : CE} (hc : (CE.not_ v).Plain) (hv : Good v) (hvk : 2 ≤ v.rank) : Good (.not_ v) := by
  refine Good.ofFull hc (k := 2) rfl (.inl (by omega)) (by unfold isBin; omega) fun rest hs => ?_
  rw [CE_yield_not_, P_lv, List.cons_append, pLevel]
  refine ite_t rfl ?_
  show (P (.lv 2) (v.yield ++ rest)).bind _ = _
  rw [hv.full 2 hvk rest hs]
  rfl

theorem good_sign {op : Tok} {v : CE} (hc : (CE.sign op v).Plain) (hv : Good v) : Good (.sign op v) := by
  refine Good.ofFull hc (k := 7) rfl (.inr ⟨rfl, rfl⟩) (by unfold isBin; omega) fun rest hs => ?_
  rw [CE_Plain_sign] at hc
  obtain ⟨h1, h2, h3⟩ := hc
  have hsn : signNext (op :: (v.yield ++ rest)) = true := by
    rcases h3 with rfl | ⟨rfl, h3⟩
    · rfl
    · have hst := CE.start v h1 [] rfl
      obtain ⟨t, r, he, _⟩ := hst.heads.first
      rw [List.append_nil] at he
      have := h3 t r he
      have hn : t.isNum = false := by
        rw [Bool.eq_false_iff]
        intro hc
        apply this
        simpa [Tok.isNum, Num, or_assoc] using hc
      rw [he]
      simp [signNext, nextIs, hn]
      right
      rfl
  have hop : op.isSymOf [c% "+", c% "-"] = true := by
    rcases h3 with rfl | ⟨rfl, h3⟩ <;> rfl
  rw [CE_yield_sign, P_lv, List.cons_append, pLevel, hsn, if_pos rfl, tokIf, hop, if_pos rfl]
  show (P (.lv 7) (v.yield ++ rest)).bind _ = _
  rw [hv.full 7 h2 rest hs]
  rfl

theorem good_pred {c v : CE} {tail : List Tok} (hc : c.Plain) (hk : c.rank = 3) (hy : c.yield = v.yield ++ tail)
    (hv : Good v) (hvk : 4 ≤ v.rank) (hst : ∀ rest, Stop 4 (tail ++ rest))
    (h : ∀ rest, Stop 3 rest → pPredicate P v (tail ++ rest) = some (c, rest)) : Good c := by
  refine Good.ofFull hc (k := 3) hk.symm (.inl (by omega)) (by unfold isBin; omega) fun rest hs => ?_
  rw [lv_operand 3 (.inl rfl), pOperand, hy, List.append_assoc]
  simp only [hv.full 4 hvk _ (hst rest), Option.bind_eq_bind, Option.bind_some]
  rw [P_loop]
  exact h rest hs

theorem symIn_of {ss : List Str} {t : Tok} (h : SymIn ss t) : ∃ s ∈ ss, t = symT s := by
  unfold SymIn at h
  rw [List.mem_map] at h
  obtain ⟨k, hk, rfl⟩ := h
  exact ⟨k, hk, rfl⟩

theorem symIn_isSymOf {ss : List Str} {t : Tok} (h : SymIn ss t) : t.isSymOf ss = true := by
  obtain ⟨s, hs, rfl⟩ := symIn_of h
  simpa [Tok.isSymOf, symT] using hs

theorem kwIn_isKwOf {ks : List Str} {t : Tok} (h : KwIn ks t) (hu : ∀ k ∈ ks, upper k = k) : t.isKwOf ks = true := by
  obtain ⟨s, hs, rfl⟩ := KwIn.of h
  simpa [Tok.isKwOf, kwT, hu s hs] using hs

/-- No plain expression starts with a quantifier. -/
theorem notQuant {ts : List Tok} (h : Heads ts) {g : Tok → Bool} : next2 Tok.isCmpQuant g ts = false := by
  obtain ⟨t, u, rfl, ht⟩ := h.first
  have := okFirst_kwOf ht [c% "ALL", c% "SOME", c% "ANY"] (by decide +kernel)
  cases u with
  | nil => rfl
  | cons u us =>
    rw [next2, Tok.isCmpQuant, this]
    rfl

theorem good_cmp {op : Tok} {l r : CE} (hc : (CE.cmp op l r).Plain) (hl : Good l) (hr : Good r) : Good (.cmp op l r) := by
  have hp := hc
  rw [CE_Plain_cmp] at hp
  obtain ⟨h1, h2, h3, h4, h5⟩ := hp
  have hop : op.isCmp = true := symIn_isSymOf h1
  have hfr : op.frank = some 3 := frank_symOf hop (by decide +kernel)
  refine good_pred hc rfl (CE_yield_cmp op l r) hl h3 (fun rest => Stop.lt hfr (by omega)) fun rest hs => ?_
  have hq : next2 Tok.isCmpQuant (Tok.isSym (c% "(")) (r.yield ++ rest) = false :=
    notQuant (CE.start r h4 rest (hs.star (by omega))).heads
  rw [List.cons_append, pPredicate, if_pos hop, pCompared, hq, Bool.false_and, if_neg (by simp)]
  simp only [hr.full 4 h5 rest (hs.mono (by omega)), Option.bind_eq_bind, Option.bind_some]

theorem neg_stop {neg : Bool} {t : Tok} {ts : List Tok} (ht : t.frank = some 3) :
    Stop 4 (flag neg [kwT (c% "NOT")] ++ t :: ts) := by
  cases neg with
  | false => exact Stop.lt ht (by omega)
  | true => exact Stop.lt (k := 3) (by decide +kernel) (by omega)

theorem pred_neg {v : CE} {neg : Bool} {t : Tok} {ts : List Tok} (h1 : t.isNegatable = true) (h2 : t.isCmp = false)
    (h3 : t.isKw (c% "IS") = false) : pPredicate P v (flag neg [kwT (c% "NOT")] ++ t :: ts) = pNegatable P v neg t ts := by
  cases neg with
  | false =>
    show pPredicate P v (t :: ts) = _
    rw [pPredicate, h1, h2, h3]
    rfl
  | true =>
    show pPredicate P v (kwT (c% "NOT") :: t :: ts) = _
    rw [pPredicate, if_neg (by decide +kernel), if_neg (by decide +kernel), if_neg (by decide +kernel),
      if_pos (by simp only [nextIs, h1]; decide +kernel)]
    simp only [tokIf, h1, if_pos, Option.bind_eq_bind, Option.bind_some]

theorem good_between {neg : Bool} {v l u : CE} (hc : (CE.between neg v l u).Plain) (hv : Good v) (hl : Good l) (hu : Good u) :
    Good (.between neg v l u) := by
  have hp := hc
  rw [CE_Plain_between] at hp
  obtain ⟨h1, h2, h3, h4, h5, h6⟩ := hp
  refine good_pred hc rfl (CE_yield_between neg v l u) hv h2 (fun rest => ?_) fun rest hs => ?_
  · rw [List.append_assoc]; exact neg_stop (by decide +kernel)
  · rw [List.append_assoc, List.cons_append, pred_neg (by decide +kernel) (by decide +kernel) (by decide +kernel),
      pNegatable, if_pos (by decide +kernel), List.append_assoc, List.cons_append]
    refine bind_s (hl.full 4 h4 _ (Stop.lt (k := 1) (by decide +kernel) (by omega))) ?_
    refine bind_s (a := u.yield ++ rest) rfl ?_
    simp only [Option.bind_eq_bind, Option.bind_some, hu.full 4 h6 rest (hs.mono (by omega))]

theorem good_inList {neg : Bool} {v : CE} {es : List CE} (hc : (CE.inList neg v es).Plain) (hv : Good v)
    (hes : ∀ e ∈ es, Good e) : Good (.inList neg v es) := by
  have hp := hc
  rw [CE_Plain_inList] at hp
  obtain ⟨h1, h2, h3, h4⟩ := hp
  refine good_pred hc rfl (CE_yield_inList neg v es) hv h2 (fun rest => ?_) fun rest hs => ?_
  · rw [List.append_assoc]; exact neg_stop (by decide +kernel)
  · rw [List.append_assoc, List.cons_append, pred_neg (by decide +kernel) (by decide +kernel) (by decide +kernel),
      pNegatable, if_neg (by decide +kernel), if_pos (by decide +kernel), inParens, List.cons_append, sym_same]
    simp only [List.append_assoc, List.cons_append, List.nil_append, Option.bind_eq_bind, Option.bind_some]
    rw [exprs_notIn h3 h4, if_neg (by simp), exprs_ok h3 hes End.rpar]
    simp only [Option.bind_some, sym_same]

theorem good_inSub {neg : Bool} {v : CE} {q : CQ} (hc : (CE.inSub neg v q).Plain) (hv : Good v)
    (hq : ∀ rest, pSub P (q.yield ++ symT (c% ")") :: rest) = some (q, rest))
    (hin : ∀ rest, inStart (q.yield ++ symT (c% ")") :: rest) = true) : Good (.inSub neg v q) := by
  have hp := hc
  rw [CE_Plain_inSub] at hp
  obtain ⟨h1, h2, h3⟩ := hp
  refine good_pred hc rfl (CE_yield_inSub neg v q) hv h2 (fun rest => ?_) fun rest hs => ?_
  · rw [List.append_assoc]; exact neg_stop (by decide +kernel)
  · rw [List.append_assoc, List.cons_append, pred_neg (by decide +kernel) (by decide +kernel) (by decide +kernel),
      pNegatable, if_neg (by decide +kernel), if_pos (by decide +kernel), inParens, List.cons_append, sym_same]
    simp only [List.append_assoc, List.cons_append, List.nil_append, Option.bind_eq_bind, Option.bind_some]
    rw [hin, if_pos rfl, hq]
    rfl

theorem kw_same (k : Str) (ts : List Tok) (h : upper k = k) : kw k (kwT k :: ts) = some ts := by
  simp [kw, Tok.isKw, kwT, h]

theorem good_like {neg : Bool} {v p : CE} {esc : Option CE} (hc : (CE.like neg v p esc).Plain) (hv : Good v)
    (hp : Good p) (he : ∀ e, esc = some e → Good e) : Good (.like neg v p esc) := by
  have hpl := hc
  rw [CE_Plain_like] at hpl
  obtain ⟨h1, h2, h3, h4, h5⟩ := hpl
  refine good_pred hc rfl (CE_yield_like neg v p esc) hv h2 (fun rest => ?_) fun rest hs => ?_
  · rw [List.append_assoc]; exact neg_stop (by decide +kernel)
  · rw [List.append_assoc, List.cons_append, pred_neg (by decide +kernel) (by decide +kernel) (by decide +kernel),
      pNegatable, if_neg (by decide +kernel), if_neg (by decide +kernel), if_pos (by decide +kernel), List.append_assoc]
    cases esc with
    | none =>
      rw [CE_yieldOpt_none]
      show (P (.lv 4) (p.yield ++ rest)).bind _ = _
      rw [hp.full 4 h4 rest (hs.mono (by omega)), Option.bind_some, optEscape,
        hs.kwNone (k := 3) (by decide +kernel) (by omega)]
      rfl
    | some e =>
      rw [CE_PlainOpt_some] at h5
      rw [CE_yieldOpt_some]
      show (P (.lv 4) (p.yield ++ kwT (c% "ESCAPE") :: (e.yield ++ rest))).bind _ = _
      rw [hp.full 4 h4 _ (Stop.lt (k := 3) (by decide +kernel) (by omega)), Option.bind_some, optEscape,
        kw_same _ _ (by decide +kernel)]
      simp only [(he e rfl).full 4 h5.2 rest (hs.mono (by omega)), Option.bind_eq_bind, Option.bind_some]

theorem good_isNull {neg : Bool} {v : CE} (hc : (CE.isNull neg v).Plain) (hv : Good v) : Good (.isNull neg v) := by
  have hp := hc
  rw [CE_Plain_isNull] at hp
  refine good_pred hc rfl (CE_yield_isNull neg v) hv hp.2 (fun rest => Stop.lt (k := 3) (by decide +kernel) (by omega))
    fun rest hs => ?_
  rw [List.cons_append, pPredicate, if_neg (by decide +kernel), if_pos (by decide +kernel), pIs]
  cases neg <;> rfl

theorem good_distinct {neg : Bool} {l r : CE} (hc : (CE.distinct neg l r).Plain) (hl : Good l) (hr : Good r) :
    Good (.distinct neg l r) := by
  have hp := hc
  rw [CE_Plain_distinct] at hp
  obtain ⟨h1, h2, h3, h4⟩ := hp
  refine good_pred hc rfl (CE_yield_distinct neg l r) hl h2 (fun rest => Stop.lt (k := 3) (by decide +kernel) (by omega))
    fun rest hs => ?_
  rw [List.cons_append, pPredicate, if_neg (by decide +kernel), if_pos (by decide +kernel), pIs]
  have : P (.lv 4) (r.yield ++ rest) = some (r, rest) := hr.full 4 h4 rest (hs.mono (by omega))
  cases neg
  · show (P (.lv 4) (r.yield ++ rest)).bind _ = _
    rw [this]; rfl
  · show (P (.lv 4) (r.yield ++ rest)).bind _ = _
    rw [this]; rfl

/-! ## Primary expressions -/

theorem prim_word {t : Tok} (h : Word t) (ts : List Tok) : pPrimary P t ts = pName P t ts := by
  rw [pPrimary]
  simp only [word_sym h, word_isNum h, word_str h, word_ustr h, word_bin h,
    word_kw h (c% "NULL") (by decide +kernel), word_kwOf h [c% "TRUE", c% "FALSE"] (by decide +kernel),
    word_kw h (c% "CASE") (by decide +kernel), word_kw h (c% "CAST") (by decide +kernel),
    word_kw h (c% "TRY_CAST") (by decide +kernel), word_kw h (c% "ARRAY") (by decide +kernel),
    word_kw h (c% "ROW") (by decide +kernel), word_kw h (c% "INTERVAL") (by decide +kernel),
    word_kw h (c% "DOUBLE") (by decide +kernel), word_kw h (c% "LISTAGG") (by decide +kernel),
    word_kw h (c% "CURRENT_DATE") (by decide +kernel), word_kwOf h dateTimeWords (by decide +kernel),
    word_kwOf h sessionWords (by decide +kernel), word_kw h (c% "NORMALIZE") (by decide +kernel), word_isIdent h,
    word_kw h (c% "EXISTS") (by decide +kernel), word_kw h (c% "POSITION") (by decide +kernel), word_kw h (c% "SUBSTRING") (by decide +kernel),
    word_kw h (c% "EXTRACT") (by decide +kernel), word_kw h (c% "TRIM") (by decide +kernel), word_kw h (c% "GROUPING") (by decide +kernel),
    Bool.false_and, Bool.or_self, Bool.false_eq_true, if_false, if_true, if_pos]

theorem good_null : Good .null :=
  Good.ofPrimary (by rw [CE_Plain_null]; trivial) rfl (CE_yield_null) fun rest _ => rfl

theorem good_param : Good .param :=
  Good.ofPrimary (by rw [CE_Plain_param]; trivial) rfl (CE_yield_param) fun rest _ => rfl

theorem good_num {m : Bool} {t : Tok} (hc : (CE.num m t).Plain) : Good (.num m t) := by
  have hp := hc
  rw [CE_Plain_num] at hp
  have hn : t.isNum = true ∧ ∀ s, t.isSym s = false := by
    rcases hp with h | h | h <;> simp [Tok.isNum, Tok.isSym, h]
  cases m with
  | false =>
    refine Good.ofPrimary hc rfl (CE_yield_num false t) fun rest _ => ?_
    simp [pPrimary, hn.1, hn.2]
  | true =>
    refine Good.ofPrimary hc rfl (CE_yield_num true t) fun rest _ => ?_
    show (tokIf Tok.isNum (t :: rest)).bind _ = _
    simp [tokIf, hn.1]

theorem good_bool {t : Tok} (hc : (CE.bool t).Plain) : Good (.bool t) := by
  have hp := hc
  rw [CE_Plain_bool] at hp
  simp only [KwIn, List.map, List.mem_cons, List.not_mem_nil, or_false] at hp
  rcases hp with h | h <;> subst h <;> exact Good.ofPrimary hc rfl (CE_yield_bool _) fun rest _ => rfl

theorem good_session {t : Tok} (hc : (CE.session t).Plain) : Good (.session t) := by
  have hp := hc
  rw [CE_Plain_session] at hp
  simp only [KwIn, List.map, List.mem_cons, List.not_mem_nil, or_false] at hp
  rcases hp with h | h | h | h <;> subst h <;> exact Good.ofPrimary hc rfl (CE_yield_session _) fun rest _ => rfl

theorem pString_ok {s : CStr} (h : PlainStr s) {rest : List Tok} (hr : nextKw (c% "UESCAPE") rest = false) :
    pString (s.yield ++ rest) = some (s, rest) := by
  cases s with
  | basic t =>
    have h : t.kind = .str := h
    simp [CStr.yield, pString, h]
  | unicode t e =>
    obtain ⟨h1, h2⟩ := h
    cases e with
    | none =>
      have : next2 (Tok.isKw (c% "UESCAPE")) (fun u => u.kind == .str) rest = false := by
        match rest, hr with
        | [], _ => rfl
        | [_], _ => rfl
        | t :: u :: ts, hr => rw [nextKw] at hr; simp [next2, hr]
      simp [CStr.yield, pString, h1, this]
    | some e =>
      have h2 : e.kind = .str := h2 e rfl
      have : next2 (Tok.isKw (c% "UESCAPE")) (fun u => u.kind == .str) (kwT (c% "UESCAPE") :: e :: rest) = true := by
        rw [next2, h2]; decide +kernel
      simp [CStr.yield, pString, h1, this]

theorem Stop.notEsc {ts : List Tok} (h : Stop 9 ts) : nextKw (c% "UESCAPE") ts = false :=
  h.notKw (k := 9) (by decide +kernel) (by omega)

theorem str_first {s : CStr} (h : PlainStr s) : ∃ t r, s.yield = t :: r ∧ (t.kind = .str ∨ t.kind = .ustr) := by
  cases s with
  | basic t => exact ⟨t, [], rfl, .inl h⟩
  | unicode t e => cases e <;> exact ⟨t, _, rfl, .inr h.1⟩

theorem str_next {s : CStr} (h : PlainStr s) (rest : List Tok) : nextStr (s.yield ++ rest) = true := by
  obtain ⟨t, r, he, hk⟩ := str_first h
  rw [he]
  rcases hk with hk | hk <;> simp [nextStr, nextIs, hk]

theorem good_str {s : CStr} (hc : (CE.str s).Plain) : Good (.str s) := by
  have hp := hc
  rw [CE_Plain_str] at hp
  obtain ⟨t, r, he, hk⟩ := str_first hp
  refine Good.ofPrimary hc rfl ((CE_yield_str _).trans he) fun rest hs => ?_
  have hstr := pString_ok hp hs.notEsc
  rw [he, List.cons_append] at hstr
  rcases hk with hk | hk <;> simp [pPrimary, Tok.isSym, Tok.isNum, hk, hstr]

theorem good_binary {t : Tok} (hc : (CE.binary t).Plain) : Good (.binary t) := by
  have h := hc
  rw [CE_Plain_binary] at h
  refine Good.ofPrimary hc rfl (CE_yield_binary _) fun rest _ => ?_
  simp [pPrimary, Tok.isSym, Tok.isNum, h]

theorem good_dateTime {t : Tok} {p : Option Tok} (hc : (CE.dateTime t p).Plain) : Good (.dateTime t p) := by
  have hp := hc
  rw [CE_Plain_dateTime] at hp
  rcases hp with ⟨rfl, rfl⟩ | ⟨h1, h2⟩
  · exact Good.ofPrimary hc rfl (CE_yield_dateTime _ _) fun rest _ => rfl
  · have key : ∀ rest, Stop 9 rest → optPrec (optIn [symT (c% "(")] [symT (c% ")")] (p.map fun x => [x]) ++ rest) = some (p, rest) := by
      intro rest hs
      cases p with
      | none =>
        show optPrec rest = _
        rw [optPrec, hs.symNone (k := 9) (by decide +kernel) (by omega)]
      | some n =>
        have : (n.kind == .int) = true := by simpa using h2 n rfl
        show optPrec (symT (c% "(") :: n :: symT (c% ")") :: rest) = _
        rw [optPrec, sym_same]
        simp only [pKind, this, if_pos, Option.bind_eq_bind, Option.bind_some, sym_same]
    simp only [KwIn, List.map, List.mem_cons, List.not_mem_nil, or_false] at h1
    rcases h1 with h | h | h | h <;> subst h <;> refine Good.ofPrimary hc rfl (CE_yield_dateTime _ _) fun rest hs => ?_
    all_goals
      show (optPrec (optIn [symT (c% "(")] [symT (c% ")")] (p.map fun x => [x]) ++ rest)).bind _ = _
      rw [key rest hs]
      rfl

theorem pIdents_one {t : Tok} {rest : List Tok} (h : t.isIdent = true) (hc : sym (c% ",") rest = none) :
    pIdents (t :: rest) = some ([t], rest) := by
  cases rest with
  | nil => simp [pIdents, h]
  | cons u rest =>
    have : u.isSym (c% ",") = false := by
      rw [Bool.eq_false_iff]; intro h'; simp [sym, h'] at hc
    simp [pIdents, h, this]

theorem pQName_one {t : Tok} {rest : List Tok} (h : t.isIdent = true) (hd : next2 (Tok.isSym (c% ".")) Tok.isIdent rest = false) :
    pQName (t :: rest) = some ([t], rest) := by
  match rest, hd with
  | [], _ => simp [pQName, h]
  | [u], _ => simp [pQName, h, nextIs]
  | u :: v :: rest, hd =>
    rw [next2] at hd
    simp only [pQName, h, nextIs, hd]
    rfl

theorem notName_of {rest : List Tok} (h : nextSym (c% ".") rest = false) : next2 (Tok.isSym (c% ".")) Tok.isIdent rest = false := by
  match rest, h with
  | [], _ => rfl
  | [u], _ => rfl
  | u :: v :: rest, h => rw [nextSym] at h; rw [next2, h]; rfl

theorem pQName_ok : ∀ {ns : List Tok} {rest : List Tok}, ns ≠ [] → Words ns → next2 (Tok.isSym (c% ".")) Tok.isIdent rest = false →
    pQName (qname ns ++ rest) = some (ns, rest)
  | [], _, h, _, _ => absurd rfl h
  | [t], rest, _, h, hd => pQName_one (word_isIdent (h t (by simp))) hd
  | t :: u :: ns, rest, _, h, hd => by
    have ih := pQName_ok (ns := u :: ns) (rest := rest) (by simp) (fun x hx => h x (by simp at hx ⊢; exact .inr hx)) hd
    have hy : qname (t :: u :: ns) ++ rest = t :: symT (c% ".") :: (qname (u :: ns) ++ rest) := by
      simp [qname, sepBy]
    have hu : nextIs Tok.isIdent (qname (u :: ns) ++ rest) = true := by
      have := word_isIdent (h u (by simp))
      cases ns <;> simpa [qname, sepBy, nextIs] using this
    rw [hy, pQName, if_pos (word_isIdent (h t (by simp))), if_pos (by rw [hu]; rfl), ih]
    rfl

theorem pIdents_ok : ∀ {ns : List Tok} {rest : List Tok}, ns ≠ [] → Words ns → sym (c% ",") rest = none →
    pIdents (commas (ns.map fun t => [t]) ++ rest) = some (ns, rest)
  | [], _, h, _, _ => absurd rfl h
  | [t], rest, _, h, hd => pIdents_one (word_isIdent (h t (by simp))) hd
  | t :: u :: ns, rest, _, h, hd => by
    have ih := pIdents_ok (ns := u :: ns) (rest := rest) (by simp) (fun x hx => h x (by simp at hx ⊢; exact .inr hx)) hd
    have hy : commas ((t :: u :: ns).map fun t => [t]) ++ rest = t :: symT (c% ",") :: (commas ((u :: ns).map fun t => [t]) ++ rest) := by
      simp [commas, sepBy]
    rw [hy, pIdents, if_pos (word_isIdent (h t (by simp)))]
    refine ite_t rfl ?_
    rw [ih]
    rfl

theorem pColumns_ok {ns rest : List Tok} (hne : ns ≠ []) (h : Words ns) :
    pColumns (columns ns ++ rest) = some (ns, rest) := by
  have hy : columns ns ++ rest = symT (c% "(") :: (commas (ns.map fun t => [t]) ++ symT (c% ")") :: rest) := by
    simp [columns, inParens, hne]
  rw [hy, pColumns, sym_same]
  simp only [Option.bind_eq_bind, Option.bind_some, pIdents_ok (rest := symT (c% ")") :: rest) hne h rfl, sym_same]

theorem optColumns_ok {ns rest : List Tok} (h : Words ns) (hr : nextSym (c% "(") rest = false) :
    optColumns (columns ns ++ rest) = some (ns, rest) := by
  by_cases hne : ns = []
  · subst hne
    show optColumns rest = _
    rw [optColumns, hr]; rfl
  · have := pColumns_ok (rest := rest) hne h
    have hy : columns ns ++ rest = symT (c% "(") :: (commas (ns.map fun t => [t]) ++ symT (c% ")") :: rest) := by
      simp [columns, inParens, hne]
    rw [optColumns, if_pos (by rw [hy]; rfl), this]

theorem good_col {t : Tok} (hc : (CE.col t).Plain) : Good (.col t) := by
  have h := hc
  rw [CE_Plain_col] at h
  refine Good.ofPrim hc rfl fun rest hs hd => ?_
  rw [CE_yield_col, List.cons_append, List.nil_append, P_lv8, prim_word h, pName, hs.notStr (by omega), hs.notSym (k := 9) (by decide +kernel) (by omega),
    pQName_one (word_isIdent h) (hd rfl)]
  simp only [Bool.false_eq_true, if_false, Option.bind_eq_bind, Option.bind_some,
    hs.notSym (w := c% "(") (k := 9) (by decide +kernel) (by omega)]

theorem post_deref {v : CE} {n : Tok} (h : Word n) (rest : List Tok) :
    P (.loop 8 v) (symT (c% ".") :: n :: rest) = P (.loop 8 (.deref v n)) rest := by
  rw [P_loop, pLoop, pPostfix]
  refine ite_f rfl (ite_t (by simp only [next2, word_isIdent h]; decide +kernel) ?_)
  simp only [List.drop, pIdent, word_isIdent h, if_pos, Option.bind_eq_bind, Option.bind_some]

theorem qname_snoc {n : Tok} : ∀ {ns : List Tok}, ns ≠ [] → qname (ns ++ [n]) = qname ns ++ [symT (c% "."), n]
  | [], h => absurd rfl h
  | [t], _ => rfl
  | t :: u :: ns, _ => by
    have ih := qname_snoc (n := n) (ns := u :: ns) (by simp)
    have h1 : qname ((t :: u :: ns) ++ [n]) = t :: symT (c% ".") :: qname ((u :: ns) ++ [n]) := by simp [qname, sepBy]
    have h2 : qname (t :: u :: ns) = t :: symT (c% ".") :: qname (u :: ns) := by simp [qname, sepBy]
    rw [h1, h2, ih]; rfl

/-- What is known of a chain: its names, and that reading its first name and then its tail gives the chain. -/
def ChainOf (c : CE) : Prop :=
  ∃ t ns, Words (t :: ns) ∧ c.yield = qname (t :: ns) ∧
    ∃ tail, c.yield = t :: tail ∧ ∀ rest, P (.loop 8 (.col t)) (tail ++ rest) = P (.loop 8 c) rest

theorem chain_col {t : Tok} (h : Word t) : ChainOf (.col t) :=
  ⟨t, [], by simpa [Words] using h, CE_yield_col t, [], CE_yield_col t, fun _ => rfl⟩

theorem chain_deref {v : CE} {n : Tok} (h : (CE.deref v n).Plain) (ih : ChainOf v) : ChainOf (.deref v n) := by
    rw [CE_Plain_deref] at h
    obtain ⟨t, ns, h1, h2, tail, h3, h4⟩ := ih
    refine ⟨t, ns ++ [n], ?_, ?_, tail ++ [symT (c% "."), n], ?_, fun rest => ?_⟩
    · intro x hx
      simp only [List.mem_cons, List.mem_append, List.not_mem_nil, or_false] at hx
      rcases hx with hx | hx | rfl
      · exact h1 x (by simp [hx])
      · exact h1 x (by simp [hx])
      · exact h.2.2
    · rw [CE_yield_deref, h2]
      exact (qname_snoc (ns := t :: ns) (by simp)).symm
    · rw [CE_yield_deref, h3]; rfl
    · rw [List.append_assoc]
      exact (h4 _).trans (post_deref h.2.2 rest)

theorem chain_of : ∀ (n : Nat) (c : CE), sizeOf c ≤ n → c.Plain → c.isChain = true → ChainOf c := by
  intro n
  induction n with
  | zero => intro c hn; cases c <;> simp at hn
  | succ n ih =>
    intro c hn h hc
    cases c with
    | col t => exact chain_col (by rwa [CE_Plain_col] at h)
    | deref v m =>
      refine chain_deref h (ih v ?_ ?_ hc)
      · simp at hn; omega
      · rw [CE_Plain_deref] at h; exact h.1
    | _ => simp [CE.isChain] at hc

theorem chain_names {c : CE} (h : c.Plain) (hc : c.isChain = true) : ChainOf c := chain_of _ c (Nat.le_refl _) h hc

theorem good_deref {v : CE} {n : Tok} (hc : (CE.deref v n).Plain) (hv : Good v) : Good (.deref v n) := by
  have h := hc
  rw [CE_Plain_deref] at h
  obtain ⟨h1, h2, h3⟩ := h
  refine Good.ofPrim hc rfl fun rest hs hd => ?_
  cases hch : v.isChain with
  | false =>
    rw [CE_yield_deref, List.append_assoc, List.cons_append, List.cons_append, List.nil_append,
      hv.prim h2 _ (Stop.lt (t := symT (c% ".")) (k := 8) (by decide +kernel) (by omega)) (fun h' => by rw [hch] at h'; cases h')]
    exact post_deref h3 rest
  | true =>
    have hch' : (CE.deref v n).isChain = true := hch
    obtain ⟨t, ns, hw, hy, tail, ht, hl⟩ := chain_names hc hch'
    have hq := pQName_ok (ns := t :: ns) (by simp) hw (hd hch')
    rw [← hy, ht, List.cons_append] at hq
    have hw1 := hw t (by simp)
    have hdot : ∃ r, tail = symT (c% ".") :: r := by
      cases ns with
      | nil =>
        rw [CE_yield_deref] at hy
        have := congrArg List.length hy
        simp [qname, sepBy] at this
      | cons u ns =>
        rw [ht] at hy
        simp only [qname, List.map, sepBy, List.cons_append, List.nil_append, List.cons.injEq, true_and] at hy
        exact ⟨_, hy⟩
    obtain ⟨r, hr⟩ := hdot
    have hn : nextStr (tail ++ rest) = false := by rw [hr]; rfl
    have ha : nextSym (c% "->") (tail ++ rest) = false := by rw [hr]; rfl
    rw [ht, List.cons_append, P_lv8, prim_word hw1, pName, hn, ha]
    simp only [Bool.false_eq_true, if_false, hq, Option.bind_eq_bind, Option.bind_some,
      hs.notSym (w := c% "(") (k := 9) (by decide +kernel) (by omega)]
    exact hl rest

theorem good_subscript {v i : CE} (hc : (CE.subscript v i).Plain) (hv : Good v) (hi : Good i) : Good (.subscript v i) := by
  have h := hc
  rw [CE_Plain_subscript] at h
  obtain ⟨h1, h2, h3, h4⟩ := h
  refine Good.ofPrim hc rfl fun rest hs _ => ?_
  rw [CE_yield_subscript]
  simp only [List.append_assoc, List.cons_append, List.nil_append]
  rw [hv.prim h2 _ (Stop.lt (k := 8) (by decide +kernel) (by omega)) (fun _ => notName_of rfl), P_loop, pLoop, pPostfix]
  refine ite_t rfl ?_
  rw [List.drop_one, List.tail_cons]
  simp only [hi.full 4 h4 _ (Stop.free frank_rbra), Option.bind_eq_bind, Option.bind_some, sym_same]

theorem good_typeCtor {n : Tok} {s : CStr} (hc : (CE.typeCtor n s).Plain) : Good (.typeCtor n s) := by
  have h := hc
  rw [CE_Plain_typeCtor] at h
  obtain ⟨h1, h2⟩ := h
  refine Good.ofPrimary hc rfl (CE_yield_typeCtor _ _) fun rest hs => ?_
  rw [prim_word h1, pName, str_next h2, if_pos rfl, pString_ok h2 hs.notEsc]
  rfl

/-! ## Parentheses -/

theorem pIdents_scan : ∀ {ts : List Tok} {ids r : List Tok} (d : Nat), pIdents ts = some (ids, r) → scanClose d ts = scanClose d r
  | [], _, _, _, h => by simp [pIdents] at h
  | [t], ids, r, d, h => by
    simp only [pIdents] at h
    split at h
    · rename_i hi
      cases h
      rw [scan_np]
      apply NP.kind
      intro hk
      simp [Tok.isIdent, hk] at hi
    · cases h
  | t :: u :: ts, ids, r, d, h => by
    simp only [pIdents] at h
    split at h
    · rename_i hi
      have hn : NP t := by
        apply NP.kind
        intro hk
        simp [Tok.isIdent, hk] at hi
      rw [scan_np hn]
      split at h
      · rename_i hu
        rw [Option.map_eq_some_iff] at h
        obtain ⟨p, hp, he⟩ := h
        cases he
        rw [isSym_eq hu, scan_np ⟨rfl, rfl⟩]
        exact pIdents_scan d hp
      · cases h; rfl
    · cases h

theorem lamHead_none {x rest : List Tok} (hb : Bal x) (hh : Heads (x ++ symT (c% ")") :: rest)) (hs : Stop 9 rest) :
    lamHead (x ++ symT (c% ")") :: rest) = none := by
  rw [lamHead, hh.not2Rpar, if_neg (by simp)]
  cases hp : pIdents (x ++ symT (c% ")") :: rest) with
  | none => rfl
  | some p =>
    obtain ⟨ids, r⟩ := p
    have h1 := pIdents_scan 0 hp
    rw [hb, scan_rpar0] at h1
    show (if next2 _ _ r = true then _ else _) = _
    rw [if_neg]
    intro hc
    match r, hc with
    | a :: b :: r, hc =>
      simp only [next2, Bool.and_eq_true] at hc
      rw [isSym_eq hc.1, scan_rpar0] at h1
      cases h1
      rw [isSym_eq hc.2] at hs
      have := hs 9 (by decide +kernel)
      omega

theorem good_paren {e : CE} (hc : (CE.paren e).Plain) (he : Good e) : Good (.paren e) := by
  have h := hc
  rw [CE_Plain_paren] at h
  refine Good.ofPrimary hc rfl (CE_yield_paren e) fun rest hs => ?_
  rw [List.append_assoc]
  show pParen P (e.yield ++ symT (c% ")") :: rest) = _
  have hh := (CE.start e h.1 (symT (c% ")") :: rest) rfl).heads
  have hq := hh.notWith (CE.notQ e h.1 _ fun h' => by rw [h.2] at h'; cases h')
  rw [pParen, lamHead_none (CE.bal e h.1) hh hs]
  have := exprs_ok (es := [e]) (by simp) (by simpa using he) (End.rpar (ts := rest))
  rw [CE_yields_cons, CE_yields_nil, commas, sepBy] at this
  simp only [hq, Bool.false_eq_true, if_false, this, Option.bind_eq_bind, Option.bind_some, sym_same, parenOrRow]

theorem good_row {es : List CE} (hc : (CE.row es).Plain) (he : ∀ e ∈ es, Good e) : Good (.row es) := by
  have h := hc
  rw [CE_Plain_row] at h
  have hne : es ≠ [] := by intro h0; rw [h0] at h; simp at h
  refine Good.ofPrimary hc rfl (CE_yield_row es) fun rest hs => ?_
  rw [List.append_assoc]
  show pParen P (commas (CE.yields es) ++ symT (c% ")") :: rest) = _
  have hh := (CE.starts es hne h.2 (symT (c% ")") :: rest) rfl).1
  have hq := hh.notWith (CE.notQs es hne h.2 _ fun q h0 => by rw [h0] at h; simp at h)
  rw [pParen, lamHead_none (Bal.commas (CE.bals es h.2)) hh hs]
  simp only [hq, Bool.false_eq_true, if_false, exprs_ok hne he End.rpar, Option.bind_eq_bind, Option.bind_some, sym_same]
  match es, h.1 with
  | a :: b :: es, _ => rfl

theorem good_rowKw {es : List CE} (hc : (CE.rowKw es).Plain) (he : ∀ e ∈ es, Good e) : Good (.rowKw es) := by
  have h := hc
  rw [CE_Plain_rowKw] at h
  refine Good.ofPrimary hc rfl (CE_yield_rowKw es) fun rest hs => ?_
  rw [inParens, List.cons_append, List.append_assoc]
  show (P .exprs (commas (CE.yields es) ++ symT (c% ")") :: rest)).bind _ = _
  rw [exprs_ok h.1 he End.rpar]
  rfl

theorem good_array {es : List CE} (hc : (CE.array es).Plain) (he : ∀ e ∈ es, Good e) : Good (.array es) := by
  have h := hc
  rw [CE_Plain_array] at h
  refine Good.ofPrimary hc rfl (CE_yield_array es) fun rest hs => ?_
  rw [List.cons_append, List.append_assoc]
  show (pArgs P (c% "]") (commas (CE.yields es) ++ symT (c% "]") :: rest)).bind _ = _
  rw [args_ok' h he]
  rfl

theorem pType_ok {t : Ty} (h : Readable t) (rest : List Tok) :
    pType (tyToks t ++ symT (c% ")") :: rest) = some (tyCst t, symT (c% ")") :: rest) := by
  rw [pType]
  exact parse_ty t h _ rfl _ (by simp only [List.length_append]; omega)

theorem good_cast {tr : Bool} {e : CE} {ty : CTy} {ts : List Tok} (hc : (CE.cast tr e ty ts).Plain) (he : Good e) :
    Good (.cast tr e ty ts) := by
  have h := hc
  rw [CE_Plain_cast] at h
  obtain ⟨h1, t, ht, rfl, rfl⟩ := h
  have key : ∀ rest, pCast P tr (inParens (e.yield ++ kwT (c% "AS") :: tyToks t) ++ rest) = some (.cast tr e (tyCst t) (tyToks t), rest) := by
    intro rest
    rw [inParens, pCast, List.cons_append, sym_same]
    simp only [List.append_assoc, List.cons_append, List.nil_append, Option.bind_eq_bind, Option.bind_some,
      he.full 0 (by omega) _ (Stop.free (t := kwT (c% "AS")) (by decide +kernel)), kw_same (c% "AS") _ (by decide +kernel),
      pType_ok ht, sym_same, List.length_append, List.length_cons, Nat.add_sub_cancel_right, List.take_left']
  cases tr
  · exact Good.ofPrimary hc rfl (CE_yield_cast _ _ _ _) fun rest hs => key rest
  · exact Good.ofPrimary hc rfl (CE_yield_cast _ _ _ _) fun rest hs => key rest

/-! ## Lambda expressions -/

theorem Good.ofLam {p : Bool} {ids : List Tok} {b : CE} (hc : (CE.lam p ids b).Plain) {t : Tok} {y : List Tok}
    (hy : (CE.lam p ids b).yield = t :: y)
    (hr : ∀ rest, Stop 0 rest → pPrimary P t (y ++ rest) = some (.lam p ids b, rest)) : Good (.lam p ids b) := by
  refine ⟨fun q hq rest hs => ?_, fun h => by simp [CE.isLam] at h, fun h => by simp [CE.rank] at h, fun h => by simp [CE.rank] at h⟩
  have hst := CE.start _ hc rest (hs.star (by simp [CE.rank] at hq; omega))
  have hq0 : q = 0 := by simpa [CE.rank] using hq
  subst hq0
  refine lowerTo 8 0 ?_ (by omega) hs (fun _ _ => hst.notK (by simp [CE.lvl])) (fun _ _ => hst.sgn (by simp [CE.lvl]))
  rw [hy, List.cons_append, show (0 + 8) = 8 from rfl, P_lv8, hr rest hs]
  exact stop_post (hs.mono (by omega))

theorem good_lam {p : Bool} {ids : List Tok} {b : CE} (hc : (CE.lam p ids b).Plain) (hb : Good b) :
    Good (.lam p ids b) := by
  have h := hc
  rw [CE_Plain_lam] at h
  obtain ⟨h2, h3, h4⟩ := h
  cases p with
  | true =>
    refine Good.ofLam hc (t := symT (c% "(")) (CE_yield_lam _ _ _) fun rest hs => ?_
    have hy : (commas (ids.map fun t => [t]) ++ [symT (c% ")")] ++ symT (c% "->") :: b.yield) ++ rest =
        commas (ids.map fun t => [t]) ++ symT (c% ")") :: symT (c% "->") :: (b.yield ++ rest) := by simp
    show pParen P ((commas (ids.map fun t => [t]) ++ [symT (c% ")")] ++ symT (c% "->") :: b.yield) ++ rest) = _
    rw [hy]
    have hl : lamHead (commas (ids.map fun t => [t]) ++ symT (c% ")") :: symT (c% "->") :: (b.yield ++ rest)) =
        some (ids, b.yield ++ rest) := by
      cases ids with
      | nil => rfl
      | cons t ids =>
        rw [lamHead, if_neg, pIdents_ok (rest := symT (c% ")") :: symT (c% "->") :: (b.yield ++ rest)) (by simp) h2 rfl]
        · rfl
        · have ht := word_sym (h2 t (by simp)) (c% ")")
          cases ids <;> simp [commas, sepBy, next2, ht]
    rw [pParen, hl]
    simp only [hb.full 0 (by omega) rest hs, Option.bind_eq_bind, Option.bind_some]
  | false =>
    have := h3 rfl
    match ids, this with
    | [t], _ =>
      have ht := h2 t (by simp)
      refine Good.ofLam hc (t := t) (CE_yield_lam _ _ _) fun rest hs => ?_
      rw [prim_word ht]
      show pName P t (symT (c% "->") :: (b.yield ++ rest)) = _
      rw [pName]
      refine ite_f rfl (ite_t rfl ?_)
      rw [List.drop_one, List.tail_cons]
      simp only [hb.full 0 (by omega) rest hs, Option.bind_eq_bind, Option.bind_some]

end Treeno
