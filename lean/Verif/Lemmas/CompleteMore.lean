import Verif.Lemmas.CompleteParts
/-!
# Plain parse trees are read back: intervals, special functions, time zones and subqueries
-/
set_option linter.unusedSimpArgs false
set_option linter.unusedVariables false
namespace Treeno
open Spec

/-! ## Intervals -/

theorem field_is {t : Tok} (h : PlainField t) : t.isIvField = true := by
  obtain ⟨k, hk, rfl⟩ := KwIn.of h
  simp only [List.mem_cons, List.not_mem_nil, or_false] at hk
  rcases hk with rfl | rfl | rfl | rfl | rfl | rfl <;> decide +kernel

theorem optSym_ok {sg : Option Tok} (h : Opt (SymIn [c% "+", c% "-"]) sg) {s : CStr} (hs : PlainStr s) (rest : List Tok) :
    optTok (Tok.isSymOf [c% "+", c% "-"]) (sg.toList ++ (s.yield ++ rest)) = (sg, s.yield ++ rest) := by
  refine optTok_ok (fun t ht => symIn_isSymOf (h t ht)) ?_
  obtain ⟨t, r, he, hk⟩ := str_first hs
  rw [he, List.cons_append, optTok]
  rcases hk with hk | hk <;> simp [Tok.isSymOf, hk]

theorem pInterval_ok {sg : Option Tok} {s : CStr} {f : Tok} {t : Option Tok} (h1 : Opt (SymIn [c% "+", c% "-"]) sg)
    (h2 : PlainStr s) (h3 : PlainField f) (h4 : Opt PlainField t) {rest : List Tok} (hs : Stop 9 rest) :
    pInterval ((sg.toList ++ (s.yield ++ f :: optPart [kwT (c% "TO")] (t.map fun x => [x]))) ++ rest) =
      some (.interval sg s f t, rest) := by
  have hesc : nextKw (c% "UESCAPE") (f :: (optPart [kwT (c% "TO")] (t.map fun x => [x]) ++ rest)) = false := by
    obtain ⟨k, hk, rfl⟩ := KwIn.of h3
    simp only [List.mem_cons, List.not_mem_nil, or_false] at hk
    rcases hk with rfl | rfl | rfl | rfl | rfl | rfl <;> rfl
  rw [List.append_assoc, List.append_assoc, List.cons_append, pInterval]
  simp only [optSym_ok h1 h2]
  refine bind_s (pString_ok h2 hesc) ?_
  refine bind_s (a := (f, optPart [kwT (c% "TO")] (t.map fun x => [x]) ++ rest)) ?_ ?_
  · simp only [pIvField, field_is h3, if_pos]
  · refine bind_s (a := (t, rest)) ?_ rfl
    cases t with
    | none =>
      show pIvTo rest = _
      rw [pIvTo, hs.kwNone (k := 9) (by decide +kernel) (by omega)]
    | some t =>
      show pIvTo (kwT (c% "TO") :: t :: rest) = _
      rw [pIvTo, kw_same _ _ (by decide +kernel)]
      simp only [pIvField, field_is (h4 t rfl), if_pos, Option.bind_eq_bind, Option.bind_some]

theorem good_interval {sg : Option Tok} {s : CStr} {f : Tok} {t : Option Tok} (hc : (CE.interval sg s f t).Plain) :
    Good (.interval sg s f t) := by
  have h := hc
  rw [CE_Plain_interval] at h
  refine Good.ofPrimary hc rfl (CE_yield_interval sg s f t) fun rest hs => ?_
  have hin : intervalNext ((sg.toList ++ (s.yield ++ f :: optPart [kwT (c% "TO")] (t.map fun x => [x]))) ++ rest) = true := by
    rw [List.append_assoc, List.append_assoc, intervalNext]
    cases sg with
    | none => rw [show (none : Option Tok).toList = [] from rfl, List.nil_append, str_next h.2.1]; rfl
    | some g =>
      show (_ || (Tok.isSymOf _ g && nextStr (s.yield ++ _))) = true
      rw [symIn_isSymOf (h.1 g rfl), str_next h.2.1]
      simp
  refine Eq.trans ?_ (pInterval_ok h.1 h.2.1 h.2.2.1 h.2.2.2 hs)
  generalize ((sg.toList ++ (s.yield ++ f :: optPart [kwT (c% "TO")] (t.map fun x => [x]))) ++ rest) = X at hin ⊢
  show (if (true && intervalNext X) = true then pInterval X else _) = _
  rw [hin]
  rfl

theorem good_doublePrecision {s : CStr} (hc : (CE.doublePrecision s).Plain) : Good (.doublePrecision s) := by
  have h := hc
  rw [CE_Plain_doublePrecision] at h
  refine Good.ofPrimary hc rfl (CE_yield_doublePrecision s) fun rest hs => ?_
  show (pString (s.yield ++ rest) >>= _) = _
  exact bind_s (pString_ok h hs.notEsc) rfl

/-! ## Special functions -/

theorem good_normalize {v : CE} {f : Option Tok} (hc : (CE.normalize v f).Plain) (hv : Good v) : Good (.normalize v f) := by
  have h := hc
  rw [CE_Plain_normalize] at h
  obtain ⟨h1, h2, h3⟩ := h
  refine Good.ofPrimary hc rfl (CE_yield_normalize v f) fun rest hs => ?_
  show pNormalize P _ = _
  simp only [inParens, List.append_assoc, List.cons_append, List.nil_append]
  rw [pNormalize]
  refine bind_s (sym_same _ _) ?_
  refine bind_s (hv.full 4 h2 _ (Hd.stop (L := [symT (c% ","), symT (c% ")")]) ?_ (by decide +kernel) 4)) ?_
  · exact Hd.optPart (Hd.cons (by decide +kernel)) (by decide +kernel) rfl
  · refine bind_s (a := (f, symT (c% ")") :: rest)) ?_ (bind_s (sym_same _ _) rfl)
    cases f with
    | none => rfl
    | some t =>
      show optForm (symT (c% ",") :: t :: symT (c% ")") :: rest) = _
      rw [optForm, sym_same]
      have : t.isForm = true := kwIn_isKwOf (h3 t rfl) (by decide +kernel)
      simp only [tokIf, this, if_pos, Option.bind_eq_bind, Option.bind_some]

theorem good_exists {q : CQ} (hc : (CE.exists_ q).Plain)
    (hq : ∀ rest, pSub P (q.yield ++ symT (c% ")") :: rest) = some (q, rest)) : Good (.exists_ q) := by
  refine Good.ofPrimary hc rfl (CE_yield_exists_ q) fun rest hs => ?_
  show pExists P _ = _
  simp only [inParens, List.append_assoc, List.cons_append, List.nil_append]
  rw [pExists]
  refine bind_s (sym_same _ _) ?_
  exact bind_s (hq rest) rfl

theorem good_position {l r : CE} (hc : (CE.position l r).Plain) (hl : Good l) (hr : Good r) : Good (.position l r) := by
  have h := hc
  rw [CE_Plain_position] at h
  obtain ⟨h1, h2, h3, h4⟩ := h
  refine Good.ofPrimary hc rfl (CE_yield_position l r) fun rest hs => ?_
  show pPosition P _ = _
  simp only [inParens, List.append_assoc, List.cons_append, List.nil_append]
  rw [pPosition]
  refine bind_s (sym_same _ _) ?_
  refine bind_s (hl.full 4 h2 _ (Stop.lt (k := 3) (by decide +kernel) (by omega))) ?_
  refine bind_s (kw_same _ _ (by decide +kernel)) ?_
  refine bind_s (hr.full 4 h4 _ (Stop.free frank_rpar)) ?_
  exact bind_s (sym_same _ _) rfl

theorem optValue_ok {k : Str} (hk : upper k = k) {n : Option CE} (hp : CE.PlainOpt 4 n) (h : ∀ x, n = some x → Good x)
    {rest : List Tok} (hr : kw k rest = none) (hs : Stop 4 rest) :
    optValue P k (optPart [kwT k] (CE.yieldOpt n) ++ rest) = some (n, rest) := by
  cases n with
  | none =>
    rw [CE_yieldOpt_none]
    show optValue P k rest = _
    rw [optValue, hr]
  | some e =>
    rw [CE_PlainOpt_some] at hp
    rw [CE_yieldOpt_some]
    show optValue P k (kwT k :: (e.yield ++ rest)) = _
    rw [optValue, kw_same _ _ hk]
    exact bind_s ((h e rfl).full 4 hp.2 _ hs) rfl

theorem optComma_ok {n : Option CE} (hp : CE.PlainOpt 4 n) (h : ∀ x, n = some x → Good x) (rest : List Tok) :
    optComma P (optPart [symT (c% ",")] (CE.yieldOpt n) ++ symT (c% ")") :: rest) = some (n, symT (c% ")") :: rest) := by
  cases n with
  | none => rw [CE_yieldOpt_none]; rfl
  | some e =>
    rw [CE_PlainOpt_some] at hp
    rw [CE_yieldOpt_some]
    show optComma P (symT (c% ",") :: (e.yield ++ symT (c% ")") :: rest)) = _
    rw [optComma, sym_same]
    exact bind_s ((h e rfl).full 4 hp.2 _ (Stop.free frank_rpar)) rfl

theorem good_substring {v f : CE} {n : Option CE} (hc : (CE.substring v f n).Plain) (hv : Good v) (hf : Good f)
    (hn : ∀ x, n = some x → Good x) : Good (.substring v f n) := by
  have h := hc
  rw [CE_Plain_substring] at h
  obtain ⟨h1, h2, h3, h4, h5⟩ := h
  refine Good.ofPrimary hc rfl (CE_yield_substring v f n) fun rest hs => ?_
  show pSubstring P _ = _
  simp only [inParens, List.append_assoc, List.cons_append, List.nil_append]
  rw [pSubstring]
  refine bind_s (sym_same _ _) ?_
  refine bind_s (hv.full 4 h2 _ (Stop.free (by decide +kernel))) ?_
  refine bind_s (kw_same _ _ (by decide +kernel)) ?_
  refine bind_s (hf.full 4 h4 _ (Hd.stop (L := [kwT (c% "FOR"), symT (c% ")")]) ?_ (by decide +kernel) 4)) ?_
  · exact Hd.optPart (Hd.cons (by decide +kernel)) (by decide +kernel) rfl
  · refine bind_s (optValue_ok (by decide +kernel) h5 hn rfl (Stop.free frank_rpar)) ?_
    exact bind_s (sym_same _ _) rfl

theorem good_extract {t : Tok} {v : CE} (hc : (CE.extract t v).Plain) (hv : Good v) : Good (.extract t v) := by
  have h := hc
  rw [CE_Plain_extract] at h
  obtain ⟨h1, h2, h3⟩ := h
  refine Good.ofPrimary hc rfl (CE_yield_extract t v) fun rest hs => ?_
  show pExtract P _ = _
  simp only [inParens, List.append_assoc, List.cons_append, List.nil_append]
  rw [pExtract]
  refine bind_s (sym_same _ _) ?_
  refine bind_s (a := (t, _)) (by simp only [pIdent, word_isIdent h1, if_pos]; rfl) ?_
  refine bind_s (kw_same _ _ (by decide +kernel)) ?_
  refine bind_s (hv.full 4 h3 _ (Stop.free frank_rpar)) ?_
  exact bind_s (sym_same _ _) rfl

theorem notTrim_opt {ts : List Tok} (h : NotTrim ts) (hne : ts ≠ []) (rest : List Tok) :
    optTok Tok.isTrim (ts ++ rest) = (none, ts ++ rest) := by
  match ts, hne with
  | t :: us, _ =>
    have : t.isTrim = false := by
      rw [Bool.eq_false_iff]
      intro hc
      obtain ⟨h1, h2⟩ := isKwOf_eq hc
      exact h t us rfl h1 h2
    rw [List.cons_append, optTok, this]
    rfl

theorem yield_ne {c : CE} (h : c.Plain) : c.yield ≠ [] := by
  intro he
  obtain ⟨t, r, h', _⟩ := (CE.start c h [] rfl).heads.first
  rw [he] at h'
  cases h'

theorem good_trimFrom {s : Option Tok} {c : Option CE} {v : CE} (hc : (CE.trimFrom s c v).Plain)
    (hcg : ∀ x, c = some x → Good x) (hv : Good v) : Good (.trimFrom s c v) := by
  have h := hc
  rw [CE_Plain_trimFrom] at h
  obtain ⟨h1, h2, h3, h4, h5⟩ := h
  refine Good.ofPrimary hc rfl (CE_yield_trimFrom s c v) fun rest hs => ?_
  show pTrim P _ = _
  simp only [inParens, List.append_assoc, List.cons_append, List.nil_append]
  have ho : optTok Tok.isTrim (s.toList ++ (optPart [] (CE.yieldOpt c) ++ kwT (c% "FROM") :: (v.yield ++ symT (c% ")") :: rest))) =
      (s, optPart [] (CE.yieldOpt c) ++ kwT (c% "FROM") :: (v.yield ++ symT (c% ")") :: rest)) := by
    cases s with
    | some t =>
      have : t.isTrim = true := kwIn_isKwOf (h1 t rfl) (by decide +kernel)
      show optTok Tok.isTrim (t :: _) = _
      rw [optTok, this]; rfl
    | none =>
      cases c with
      | none => rw [CE_yieldOpt_none]; rfl
      | some e =>
        rw [CE_PlainOpt_some] at h2
        rw [CE_yieldOpt_some]
        exact notTrim_opt (h3 rfl e rfl) (yield_ne h2.1) _
  have ht : trimChar P (optPart [] (CE.yieldOpt c) ++ kwT (c% "FROM") :: (v.yield ++ symT (c% ")") :: rest)) =
      some (c, kwT (c% "FROM") :: (v.yield ++ symT (c% ")") :: rest)) := by
    cases c with
    | none => rw [CE_yieldOpt_none]; rfl
    | some e =>
      rw [CE_PlainOpt_some] at h2
      rw [CE_yieldOpt_some]
      show trimChar P (e.yield ++ kwT (c% "FROM") :: (v.yield ++ symT (c% ")") :: rest)) = _
      refine ite_f ((CE.start e h2.1 _ rfl).heads.notKw _ (by decide +kernel)) ?_
      exact bind_s ((hcg e rfl).full 4 h2.2 _ (Stop.free (by decide +kernel))) rfl
  rw [pTrim]
  refine bind_s (sym_same _ _) ?_
  simp only [ho]
  refine bind_s ht ?_
  refine ite_t rfl ?_
  refine bind_s (a := (v, symT (c% ")") :: rest)) (hv.full 4 h5 _ (Stop.free frank_rpar)) ?_
  exact bind_s (sym_same _ _) rfl

theorem good_trim {v : CE} {c : Option CE} (hc : (CE.trim v c).Plain) (hv : Good v) (hcg : ∀ x, c = some x → Good x) :
    Good (.trim v c) := by
  have h := hc
  rw [CE_Plain_trim] at h
  obtain ⟨h1, h2, h3, h4⟩ := h
  refine Good.ofPrimary hc rfl (CE_yield_trim v c) fun rest hs => ?_
  show pTrim P _ = _
  simp only [inParens, List.append_assoc, List.cons_append, List.nil_append]
  have hhd : Hd [symT (c% ","), symT (c% ")")] (optPart [symT (c% ",")] (CE.yieldOpt c) ++ symT (c% ")") :: rest) :=
    Hd.optPart (Hd.cons (by decide +kernel)) (by decide +kernel) rfl
  rw [pTrim]
  refine bind_s (sym_same _ _) ?_
  simp only [notTrim_opt h3 (yield_ne h1)]
  refine bind_s (a := (some v, optPart [symT (c% ",")] (CE.yieldOpt c) ++ symT (c% ")") :: rest)) ?_ ?_
  · refine ite_f ((CE.start v h1 _ (hhd.star (by decide +kernel))).heads.notKw _ (by decide +kernel)) ?_
    exact bind_s (hv.full 4 h2 _ (hhd.stop (by decide +kernel) 4)) rfl
  · refine ite_f (hhd.nextKw _ (by decide +kernel)) ?_
    show trimPlain P none (some v) _ = _
    rw [trimPlain]
    refine bind_s (optComma_ok h4 hcg rest) ?_
    exact bind_s (sym_same _ _) rfl

/-! ## GROUPING -/

theorem qn_more : ∀ {n : List Tok} {t : Tok}, Words (t :: n) → ∀ (Y : List Tok),
    pQNames (qname (t :: n) ++ symT (c% ",") :: Y) = (pQNames Y).map fun p => ((t :: n) :: p.1, p.2)
  | [], t, h, Y => by
    show pQNames (t :: symT (c% ",") :: Y) = _
    rw [pQNames, if_pos (word_isIdent (h t (by simp)))]
    exact ite_f rfl (ite_t rfl rfl)
  | u :: n, t, h, Y => by
    have ih := qn_more (n := n) (t := u) (fun x hx => h x (by simp at hx ⊢; exact .inr hx)) Y
    have hy : qname (t :: u :: n) ++ symT (c% ",") :: Y = t :: symT (c% ".") :: (qname (u :: n) ++ symT (c% ",") :: Y) := by
      simp [qname, sepBy]
    rw [hy, pQNames, if_pos (word_isIdent (h t (by simp)))]
    refine ite_t rfl ?_
    rw [ih]
    cases pQNames Y <;> rfl

theorem qn_last : ∀ {n : List Tok} {t : Tok}, Words (t :: n) → ∀ (rest : List Tok),
    pQNames (qname (t :: n) ++ symT (c% ")") :: rest) = some ([t :: n], symT (c% ")") :: rest)
  | [], t, h, rest => by
    show pQNames (t :: symT (c% ")") :: rest) = _
    rw [pQNames, if_pos (word_isIdent (h t (by simp)))]
    exact ite_f rfl (ite_f rfl rfl)
  | u :: n, t, h, rest => by
    have ih := qn_last (n := n) (t := u) (fun x hx => h x (by simp at hx ⊢; exact .inr hx)) rest
    have hy : qname (t :: u :: n) ++ symT (c% ")") :: rest = t :: symT (c% ".") :: (qname (u :: n) ++ symT (c% ")") :: rest) := by
      simp [qname, sepBy]
    rw [hy, pQNames, if_pos (word_isIdent (h t (by simp)))]
    refine ite_t rfl ?_
    rw [ih]
    rfl

theorem qnames_ok : ∀ {ns : List (List Tok)}, ns ≠ [] → (∀ n ∈ ns, n ≠ [] ∧ Words n) → ∀ (rest : List Tok),
    pQNames (commas (ns.map qname) ++ symT (c% ")") :: rest) = some (ns, symT (c% ")") :: rest)
  | [], h, _, _ => absurd rfl h
  | [n], _, h, rest => by
    obtain ⟨hne, hw⟩ := h n (by simp)
    match n, hne with
    | t :: n, _ => exact qn_last hw rest
  | n :: m :: ns, _, h, rest => by
    obtain ⟨hne, hw⟩ := h n (by simp)
    have ih := qnames_ok (ns := m :: ns) (by simp) (fun x hx => h x (by simp at hx ⊢; exact .inr hx)) rest
    have hy : commas ((n :: m :: ns).map qname) ++ symT (c% ")") :: rest =
        qname n ++ symT (c% ",") :: (commas ((m :: ns).map qname) ++ symT (c% ")") :: rest) := by
      simp [commas, sepBy]
    match n, hne with
    | t :: n, _ => rw [hy, qn_more hw, ih]; rfl

theorem good_grouping {ns : List (List Tok)} (hc : (CE.grouping ns).Plain) : Good (.grouping ns) := by
  have h := hc
  rw [CE_Plain_grouping] at h
  refine Good.ofPrimary hc rfl (CE_yield_grouping ns) fun rest hs => ?_
  show pGrouping _ = _
  simp only [inParens, List.append_assoc, List.cons_append, List.nil_append]
  rw [pGrouping]
  refine bind_s (sym_same _ _) ?_
  match ns, h with
  | [], _ => rfl
  | n :: ns, h =>
    have hq := qnames_ok (ns := n :: ns) (by simp) h rest
    have hn : sym (c% ")") (commas ((n :: ns).map qname) ++ symT (c% ")") :: rest) = none := by
      obtain ⟨hne, hw⟩ := h n (by simp)
      match n, hne with
      | t :: n, _ =>
        have ht := word_sym (hw t (by simp)) (c% ")")
        cases n <;> cases ns <;> simp [commas, qname, sepBy, sym, ht]
    simp only [hn]
    refine bind_s hq ?_
    exact bind_s (sym_same _ _) rfl

/-! ## Time zones and quantified comparisons -/

theorem good_atZone {v z : CE} (hc : (CE.atZone v z).Plain) (hv : Good v) : Good (.atZone v z) := by
  have h := hc
  rw [CE_Plain_atZone] at h
  obtain ⟨h1, h2, h3, h4, h5⟩ := h
  refine Good.ofAt hc rfl fun rest hs => ?_
  have hz : pZoneSpec (z.yield ++ rest) = some (z, rest) := by
    cases z with
    | interval sg s f t =>
      rw [CE_Plain_interval] at h4
      rw [CE_yield_interval]
      refine ite_t rfl ?_
      exact pInterval_ok h4.1 h4.2.1 h4.2.2.1 h4.2.2.2 (hs.mono (by omega))
    | str s =>
      rw [CE_Plain_str] at h4
      rw [CE_yield_str]
      refine ite_f ?_ (bind_s (pString_ok h4 (hs.mono (by omega)).notEsc) rfl)
      obtain ⟨t, r, he, hk⟩ := str_first h4
      rw [he]
      rcases hk with hk | hk <;> simp [nextKw, Tok.isKw, hk]
    | _ => simp [CE.isZone] at h5
  rw [CE_yield_atZone]
  simp only [List.append_assoc, List.cons_append]
  rw [hv.at7 h2 h3 _ (Stop.lt (k := 7) (by decide +kernel) (by omega)), P_loop, pLoop, pAt]
  refine ite_t rfl ?_
  refine bind_s (kw_same _ _ (by decide +kernel)) ?_
  refine bind_s (kw_same _ _ (by decide +kernel)) ?_
  refine bind_s (kw_same _ _ (by decide +kernel)) ?_
  exact bind_s hz rfl

theorem good_quantified {op k : Tok} {l : CE} {q : CQ} (hc : (CE.quantified op k l q).Plain) (hl : Good l)
    (hq : ∀ rest, pSub P (q.yield ++ symT (c% ")") :: rest) = some (q, rest))
    (hin : ∀ rest, inStart (q.yield ++ symT (c% ")") :: rest) = true) : Good (.quantified op k l q) := by
  have hp := hc
  rw [CE_Plain_quantified] at hp
  obtain ⟨h1, h2, h3, h4, h5, h6⟩ := hp
  have hop : op.isCmp = true := symIn_isSymOf h1
  have hk : k.isCmpQuant = true := kwIn_isKwOf h2 (by decide +kernel)
  have hfr : op.frank = some 3 := frank_symOf hop (by decide +kernel)
  refine good_pred hc rfl (CE_yield_quantified op k l q) hl h4 (fun rest => Stop.lt hfr (by omega)) fun rest hs => ?_
  simp only [inParens, List.append_assoc, List.cons_append, List.nil_append]
  rw [pPredicate, if_pos hop, pCompared]
  refine ite_t ?_ ?_
  · show ((k.isCmpQuant && true) && inStart (q.yield ++ symT (c% ")") :: rest)) = true
    rw [hk, hin]; rfl
  · refine bind_s (a := (k, symT (c% "(") :: (q.yield ++ symT (c% ")") :: rest))) (by simp only [tokIf, hk, if_pos]) ?_
    refine bind_s (sym_same _ _) ?_
    exact bind_s (hq rest) rfl

/-! ## Subqueries -/

theorem qStart_lam {ts : List Tok} (h : qStart ts = true) : lamHead ts = none := by
  match ts, h with
  | t :: ts, h =>
    have key : t.isSym (c% ")") = false ∧ t.isIdent = false := by
      have hk : ∀ ks : List Str, ks.all (fun k => !nonReserved.contains k) = true → t.isKwOf ks = true →
          t.isSym (c% ")") = false ∧ t.isIdent = false := by
        intro ks hks hc
        obtain ⟨h1, h2⟩ := isKwOf_eq hc
        have := List.all_eq_true.1 hks _ h2
        refine ⟨by simp [Tok.isSym, h1], ?_⟩
        simpa [Tok.isIdent, h1] using this
      rw [qStart, Bool.or_eq_true] at h
      rcases h with h | h
      · exact hk [c% "WITH"] (by decide +kernel) (by rw [isKwOf_one]; exact h)
      · rw [qnwStart] at h
        by_cases hp : t.isSym (c% "(") = true
        · rw [isSym_eq hp]; exact ⟨rfl, rfl⟩
        · rw [if_neg hp] at h
          exact hk _ (by decide +kernel) h
    have h2 : next2 (Tok.isSym (c% ")")) (Tok.isSym (c% "->")) (t :: ts) = false := by
      cases ts with
      | nil => rfl
      | cons u ts => rw [next2, key.1]; rfl
    have h3 : pIdents (t :: ts) = none := by
      cases ts with
      | nil => simp [pIdents, key.2]
      | cons u ts => simp [pIdents, key.2]
    rw [lamHead, h2, h3]
    rfl

theorem good_sub {q : CQ} (hc : (CE.sub q).Plain)
    (hq : ∀ rest, pSub P (q.yield ++ symT (c% ")") :: rest) = some (q, rest))
    (hin : ∀ rest, qStart (q.yield ++ symT (c% ")") :: rest) = true) : Good (.sub q) := by
  refine Good.ofPrimary hc rfl (CE_yield_sub q) fun rest hs => ?_
  rw [List.append_assoc]
  show pParen P (q.yield ++ symT (c% ")") :: rest) = _
  rw [pParen, qStart_lam (hin rest)]
  refine ite_t (hin rest) ?_
  exact bind_s (hq rest) rfl

/-! ## How a query begins -/

theorem more_close {rest : List Tok} (h : nextIs (Tok.isKwOf queryMore) rest = true) : closeNext rest = true := by
  cases rest with
  | nil => exact h
  | cons t ts =>
    have : t.isKwOf queryMore = true := h
    rw [closeNext, nextIs, this, Bool.or_true]

theorem tail_limit {lim : CLimit} (rest : List Tok) (h : lim ≠ .none) : nextIs (Tok.isKwOf queryMore) (lim.yield ++ rest) = true := by
  cases lim with
  | none => exact absurd rfl h
  | limit t => rfl
  | fetch a b c d => rfl

/-- What follows the term of a query goes on with the query. -/
theorem tail_more {ob : List CSort} {off : Option (Tok × Option Tok)} {lim : CLimit} (rest : List Tok)
    (h : ob ≠ [] ∨ off ≠ none ∨ lim ≠ .none) :
    nextIs (Tok.isKwOf queryMore) (orderPart (CSort.yields ob) ++ (offsetPart off ++ lim.yield) ++ rest) = true := by
  match ob, off, lim, h with
  | .mk a b c :: _, _, _, _ => rw [CSort_yields_cons]; rfl
  | [], some (a, b), _, _ => rfl
  | [], none, lim, h =>
    exact tail_limit rest (h.elim (fun h => absurd rfl h) fun h => h.elim (fun h => absurd rfl h) id)

theorem tail_close {ob : List CSort} {off : Option (Tok × Option Tok)} {lim : CLimit} {rest : List Tok} (h : closeNext rest = true) :
    closeNext (orderPart (CSort.yields ob) ++ (offsetPart off ++ lim.yield) ++ rest) = true := by
  by_cases hn : ob ≠ [] ∨ off ≠ none ∨ lim ≠ .none
  · exact more_close (tail_more rest hn)
  · simp only [not_or, ne_eq, Decidable.not_not] at hn
    obtain ⟨h1, h2, h3⟩ := hn
    cases ob with
    | cons _ _ => cases h1
    | nil =>
      cases off with
      | some _ => cases h2
      | none =>
        cases lim with
        | none => exact h
        | limit _ => cases h3
        | fetch _ _ _ _ => cases h3

theorem setOp_more {op : Tok} {ts : List Tok} (h : KwIn [c% "UNION", c% "EXCEPT", c% "INTERSECT"] op) :
    nextIs (Tok.isKwOf queryMore) (op :: ts) = true := by
  simp only [KwIn, List.map, List.mem_cons, List.not_mem_nil, or_false] at h
  rcases h with h | h | h <;> subst h <;> rfl

mutual
theorem CQT.begins : ∀ t : CQT, t.Plain → ∀ rest, closeNext rest = true → qnwStart (t.yield ++ rest) = true
  | .set op q l r, h, rest, _ => by
    rw [CQT_Plain_set] at h; rw [CQT_yield_set, List.append_assoc]
    exact CQT.begins l h.2.2.1 _ (more_close (setOp_more h.1))
  | .spec a b c d e f g i, _, rest, _ => by rw [CQT_yield_spec]; rfl
  | .table n, _, rest, _ => by rw [CQT_yield_table]; rfl
  | .values es, _, rest, _ => by rw [CQT_yield_values]; rfl
  | .sub q, h, rest, hr => by
    rw [CQT_Plain_sub] at h; rw [CQT_yield_sub, inParens, List.cons_append, List.append_assoc, List.cons_append, List.nil_append]
    rw [qnwStart, if_pos (show Tok.isSym (c% "(") (symT (c% "(")) = true from rfl), after_close (CQN.bal q h),
      CQN.begins q h _ rfl]
    exact hr
theorem CQN.begins : ∀ q : CQN, q.Plain → ∀ rest, closeNext rest = true → qnwStart (q.yield ++ rest) = true
  | .mk t ob off lim, h, rest, hr => by
    rw [CQN_Plain_mk] at h; rw [CQN_yield_mk, List.append_assoc]
    exact CQT.begins t h.1 _ (tail_close hr)
end

/-- A plain query in parentheses is taken for a query. -/
theorem q_start {q : CQ} (hp : q.Plain) (rest : List Tok) : qStart (q.yield ++ symT (c% ")") :: rest) = true := by
  cases q with
  | mk rc w b =>
    rw [CQ_Plain_mk] at hp
    rw [CQ_yield_mk, List.append_assoc]
    match w, hp with
    | [], hp =>
      rw [CNamed_yields_nil]
      show qStart (b.yield ++ symT (c% ")") :: rest) = true
      rw [qStart, CQN.begins b hp.2.2 _ rfl, Bool.or_true]
    | .mk n c q :: ns, _ => rw [CNamed_yields_cons]; rfl

def CQT.isSub : CQT → Bool
  | .sub _ => true
  | _ => false

/-- What a query goes on with after a parenthesis closes. -/
def GoesOn (ts : List Tok) : Prop :=
  (!nextSym (c% "(") ts || afterClose (nextIs (Tok.isKwOf queryMore)) (ts.drop 1)) = true

theorem CQT.goesOn : ∀ t : CQT, t.Plain → ∀ rest, (t.isSub = true → nextIs (Tok.isKwOf queryMore) rest = true) →
    GoesOn (t.yield ++ rest)
  | .set op q l r, h, rest, _ => by
    rw [CQT_Plain_set] at h; rw [CQT_yield_set, List.append_assoc]
    exact CQT.goesOn l h.2.2.1 _ fun _ => setOp_more h.1
  | .spec a b c d e f g i, _, rest, _ => by rw [CQT_yield_spec]; rfl
  | .table n, _, rest, _ => by rw [CQT_yield_table]; rfl
  | .values es, _, rest, _ => by rw [CQT_yield_values]; rfl
  | .sub q, h, rest, hr => by
    rw [CQT_Plain_sub] at h; rw [CQT_yield_sub, inParens, List.cons_append, List.append_assoc]
    show (!true || afterClose _ (q.yield ++ symT (c% ")") :: rest)) = true
    rw [after_close (CQN.bal q h), hr rfl]; rfl

theorem notBare {rc : Bool} {t : CQT} {ob : List CSort} {off : Option (Tok × Option Tok)} {lim : CLimit}
    (h : (CQ.mk rc [] (.mk t ob off lim)).isBare = false) (ht : t.isSub = true) : ob ≠ [] ∨ off ≠ none ∨ lim ≠ .none := by
  cases t <;> try (cases ht; done)
  match ob, off, lim, h with
  | _ :: _, _, _, _ => exact .inl nofun
  | [], some _, _, _ => exact .inr (.inl nofun)
  | [], none, .limit _, _ => exact .inr (.inr nofun)
  | [], none, .fetch _ _ _ _, _ => exact .inr (.inr nofun)
  | [], none, .none, h => exact Bool.noConfusion (show true = false from h)

/-- After IN a plain query that is not bare is taken for a query. -/
theorem in_start {q : CQ} (hp : q.Plain) (hb : q.isBare = false) (rest : List Tok) :
    inStart (q.yield ++ symT (c% ")") :: rest) = true := by
  rw [inStart, q_start hp, Bool.true_and]
  cases q with
  | mk rc w b =>
    rw [CQ_Plain_mk] at hp
    rw [CQ_yield_mk, List.append_assoc]
    match w, hp, hb with
    | [], hp, hb =>
      obtain ⟨t, ob, off, lim⟩ := b
      have hq := hp.2.2
      rw [CQN_Plain_mk] at hq
      rw [CNamed_yields_nil]
      show GoesOn ((CQN.mk t ob off lim).yield ++ symT (c% ")") :: rest)
      rw [CQN_yield_mk, List.append_assoc]
      exact CQT.goesOn t hq.1 _ fun ht => tail_more _ (notBare hb ht)
    | .mk n c q :: ns, _, _ => rw [CNamed_yields_cons]; rfl

end Treeno
