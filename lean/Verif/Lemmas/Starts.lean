import Verif.Lemmas.Balance
/-!
# How the tokens of a plain expression start
-/
set_option linter.unusedSimpArgs false
set_option linter.unusedVariables false
namespace Treeno
open Spec

/-! ## Words -/

/-- No name is one of the keywords. -/
def notName (ks : List Str) : Bool := ks.all fun k => special.contains k || !nonReserved.contains k

theorem word_kwOf {t : Tok} (h : Word t) (ks : List Str) (hk : notName ks = true) : t.isKwOf ks = false := by
  obtain ⟨h1, h2⟩ := h
  rw [Bool.eq_false_iff]
  intro hc
  simp only [Tok.isKwOf, Bool.and_eq_true, beq_iff_eq, List.contains_iff_mem] at hc
  obtain ⟨hkind, hm⟩ := hc
  have h2' := h2 hkind
  rcases h1 with h | h | h | h | ⟨_, h⟩ <;> try (rw [hkind] at h; exact absurd h (by simp))
  have := List.all_eq_true.mp hk _ hm
  simp only [Bool.or_eq_true, List.contains_iff_mem, Bool.not_eq_true', ← Bool.not_eq_true] at this
  rcases this with h' | h'
  · exact h2' h'
  · exact h' (by simpa using h)

theorem isKwOf_one (k : Str) (t : Tok) : t.isKwOf [k] = t.isKw k := by
  by_cases h : upper t.text = k <;> simp [Tok.isKwOf, Tok.isKw, h]

theorem word_kw {t : Tok} (h : Word t) (k : Str) (hk : notName [k] = true) : t.isKw k = false := by
  rw [← isKwOf_one]; exact word_kwOf h _ hk

theorem ident_kind {t : Tok} (h : Ident t) : t.kind = .ident ∨ t.kind = .quoted ∨ t.kind = .backquoted ∨ t.kind = .digitIdent ∨ t.kind = .kw := by
  rcases h with h | h | h | h | ⟨h, _⟩ <;> simp [h]

theorem ident_isIdent {t : Tok} (h : Ident t) : t.isIdent = true := by
  rcases h with h | h | h | h | ⟨h, h2⟩ <;> simp [Tok.isIdent, h]
  exact h2

theorem word_isIdent {t : Tok} (h : Word t) : t.isIdent = true := ident_isIdent h.1

theorem word_sym {t : Tok} (h : Word t) (s : Str) : t.isSym s = false := by
  rcases ident_kind h.1 with h | h | h | h | h <;> simp [Tok.isSym, h]

theorem word_symOf {t : Tok} (h : Word t) (s : List Str) : t.isSymOf s = false := by
  rcases ident_kind h.1 with h | h | h | h | h <;> simp [Tok.isSymOf, h]

theorem word_isNum {t : Tok} (h : Word t) : t.isNum = false := by
  rcases ident_kind h.1 with h | h | h | h | h <;> simp [Tok.isNum, h]

theorem word_str {t : Tok} (h : Word t) : (t.kind == .str) = false := by
  rcases ident_kind h.1 with h | h | h | h | h <;> simp [h]
theorem word_ustr {t : Tok} (h : Word t) : (t.kind == .ustr) = false := by
  rcases ident_kind h.1 with h | h | h | h | h <;> simp [h]
theorem word_bin {t : Tok} (h : Word t) : (t.kind == .bin) = false := by
  rcases ident_kind h.1 with h | h | h | h | h <;> simp [h]

/-! ## First tokens -/

/-- Keywords no plain expression starts with. -/
def badStart : List Str :=
  [c% "SELECT", c% "VALUES", c% "TABLE", c% "WITH", c% "ORDER", c% "WHEN", c% "DISTINCT", c% "ALL",
   c% "UNBOUNDED", c% "CURRENT", c% "ROLLUP", c% "CUBE", c% "FROM", c% "BETWEEN", c% "SOME", c% "ANY"]

def okFirst (t : Tok) : Bool := !t.isSym (c% ")") && !t.isSym (c% "*") && !t.isSym (c% "]") && !t.isKwOf badStart && !t.isSym (c% ".")

/-- GROUPING is either the function or the start of GROUPING SETS. -/
def okTok (t : Tok) : Bool := okFirst t && !t.isKw (c% "GROUPING")

theorem okTok_first {t : Tok} (h : okTok t = true) : okFirst t = true := by
  rw [okTok, Bool.and_eq_true] at h; exact h.1

theorem okTok_of {t : Tok} (h : okFirst t = true) (h2 : t.isKw (c% "GROUPING") = false) : okTok t = true := by
  rw [okTok, h, h2]; rfl

/-- How the tokens of an expression start. -/
inductive Heads : List Tok → Prop
  | tok {t ts} : okTok t = true → Heads (t :: ts)
  | grouping {ts} : Heads (kwT (c% "GROUPING") :: symT (c% "(") :: ts)

theorem Heads.append {ts : List Tok} (h : Heads ts) (r : List Tok) : Heads (ts ++ r) := by
  cases h with
  | tok h => exact Heads.tok h
  | grouping => exact Heads.grouping

theorem Heads.first {ts : List Tok} (h : Heads ts) : ∃ t r, ts = t :: r ∧ okFirst t = true := by
  cases h with
  | tok h => exact ⟨_, _, rfl, okTok_first h⟩
  | grouping => exact ⟨_, _, rfl, by decide +kernel⟩

theorem Heads.notSets {ts : List Tok} (h : Heads ts) :
    next2 (Tok.isKw (c% "GROUPING")) (Tok.isKw (c% "SETS")) ts = false := by
  cases h with
  | tok h =>
    rename_i t ts
    rw [okTok, Bool.and_eq_true, Bool.not_eq_true'] at h
    cases ts with
    | nil => rfl
    | cons u ts => rw [next2, h.2]; rfl
  | grouping => rfl

theorem okFirst_sym1 {t : Tok} (h : okFirst t = true) : t.isSym (c% ")") = false := by
  simp only [okFirst, Bool.and_eq_true, Bool.not_eq_true'] at h
  exact h.1.1.1.1
theorem okFirst_sym2 {t : Tok} (h : okFirst t = true) : t.isSym (c% "*") = false := by
  simp only [okFirst, Bool.and_eq_true, Bool.not_eq_true'] at h
  exact h.1.1.1.2
theorem okFirst_sym3 {t : Tok} (h : okFirst t = true) : t.isSym (c% "]") = false := by
  simp only [okFirst, Bool.and_eq_true, Bool.not_eq_true'] at h
  exact h.1.1.2
theorem isKwOf_sub {ks js : List Str} {t : Tok} (h : t.isKwOf ks = false) (hs : js.all ks.contains = true) :
    t.isKwOf js = false := by
  rw [Bool.eq_false_iff] at h ⊢
  intro hc
  apply h
  simp only [Tok.isKwOf, Bool.and_eq_true, List.contains_iff_mem] at hc ⊢
  refine ⟨hc.1, ?_⟩
  simpa using List.all_eq_true.mp hs _ hc.2
theorem okFirst_kwOf {t : Tok} (h : okFirst t = true) (js : List Str) (hs : js.all badStart.contains = true) : t.isKwOf js = false := by
  simp only [okFirst, Bool.and_eq_true, Bool.not_eq_true'] at h
  exact isKwOf_sub h.1.2 hs
theorem okFirst_kw {t : Tok} (h : okFirst t = true) (k : Str) (hs : [k].all badStart.contains = true) : t.isKw k = false := by
  rw [← isKwOf_one]; exact okFirst_kwOf h _ hs

theorem okFirst_word {t : Tok} (h : Word t) : okTok t = true := by
  simp only [okTok, okFirst, word_sym h, word_kwOf h badStart (by decide +kernel), word_kw h (c% "GROUPING") (by decide +kernel)]
  rfl

theorem okFirst_kind {t : Tok} (h : t.kind ≠ .sym) (h2 : t.kind ≠ .kw) : okTok t = true := by
  simp [okTok, okFirst, Tok.isSym, Tok.isKwOf, Tok.isKw, h, h2]

theorem Heads.notRpar {ts : List Tok} (h : Heads ts) : sym (c% ")") ts = none := by
  obtain ⟨t, r, rfl, ht⟩ := h.first
  simp [sym, okFirst_sym1 ht]
theorem Heads.notRbra {ts : List Tok} (h : Heads ts) : sym (c% "]") ts = none := by
  obtain ⟨t, r, rfl, ht⟩ := h.first
  simp [sym, okFirst_sym3 ht]
theorem Heads.notStar {ts : List Tok} (h : Heads ts) : sym (c% "*") ts = none := by
  obtain ⟨t, r, rfl, ht⟩ := h.first
  simp [sym, okFirst_sym2 ht]
theorem Heads.notRpar' {ts : List Tok} (h : Heads ts) : nextSym (c% ")") ts = false := by
  obtain ⟨t, r, rfl, ht⟩ := h.first
  simp [nextSym, okFirst_sym1 ht]
theorem Heads.notDot {ts : List Tok} (h : Heads ts) : nextSym (c% ".") ts = false := by
  obtain ⟨t, r, rfl, ht⟩ := h.first
  simp only [okFirst, Bool.and_eq_true, Bool.not_eq_true'] at ht
  exact ht.2
theorem Heads.notKw {ts : List Tok} (h : Heads ts) (k : Str) (hk : [k].all badStart.contains = true) :
    nextKw k ts = false := by
  obtain ⟨t, r, rfl, ht⟩ := h.first
  simp only [nextKw, okFirst_kw ht k hk]
theorem Heads.kwNone {ts : List Tok} (h : Heads ts) (k : Str) (hk : [k].all badStart.contains = true) :
    kw k ts = none := by
  obtain ⟨t, r, rfl, ht⟩ := h.first
  simp [kw, okFirst_kw ht k hk]
theorem Heads.optQuant {ts : List Tok} (h : Heads ts) : optTok Tok.isQuant ts = (none, ts) := by
  obtain ⟨t, r, rfl, ht⟩ := h.first
  have := okFirst_kwOf ht [c% "DISTINCT", c% "ALL"] (by decide +kernel)
  simp [optTok, Tok.isQuant, this]
theorem Heads.not2 {ts : List Tok} (h : Heads ts) (k : Str) (g : Tok → Bool)
    (hk : [k].all badStart.contains = true) : next2 (Tok.isKw k) g ts = false := by
  obtain ⟨t, r, rfl, ht⟩ := h.first
  cases r with
  | nil => rfl
  | cons u r => simp [next2, okFirst_kw ht k hk]
theorem Heads.not2Rpar {ts : List Tok} (h : Heads ts) (g : Tok → Bool) : next2 (Tok.isSym (c% ")")) g ts = false := by
  obtain ⟨t, r, rfl, ht⟩ := h.first
  cases r with
  | nil => rfl
  | cons u r => simp [next2, okFirst_sym1 ht]

/-! ## Calls -/

/-- The tokens start with `.*`. -/
def dotStar (ts : List Tok) : Bool := nextSym (c% ".") ts && nextSym (c% "*") (ts.drop 1)

theorem dotStar_of {ts : List Tok} (h : nextSym (c% ".") ts = false) : dotStar ts = false := by
  rw [dotStar, h]; rfl

theorem starArgs_none {t : Tok} {ts : List Tok} (h1 : t.isSym (c% "*") = false)
    (h2 : t.isIdent = false ∨ dotStar ts = false) : starArgs (t :: ts) = none := by
  match ts, h2 with
  | [], _ => rfl
  | u :: ts, h2 =>
    simp only [starArgs, h1]
    rcases h2 with h2 | h2
    · simp [h2]
    · match ts, h2 with
      | [], _ => simp [next2]
      | [v], _ => simp [next2]
      | v :: w :: ts, h2 =>
        simp only [dotStar, nextSym, List.drop, Bool.and_eq_false_iff] at h2
        rcases h2 with h2 | h2 <;> simp [next2, h2]

/-- How the tokens of an expression start. -/
structure StartOK (c : CE) (ts : List Tok) : Prop where
  heads : Heads ts
  star : starArgs ts = none
  notK : 3 ≤ c.lvl → nextKw (c% "NOT") ts = false
  sgn : 8 ≤ c.lvl → signNext ts = false

theorem StartOK.leaf {c : CE} {t : Tok} {rest : List Tok} (h1 : okTok t = true)
    (h2 : t.isIdent = false ∨ dotStar rest = false)
    (h3 : t.isKw (c% "NOT") = false) (h4 : t.isSym (c% "+") = false) (h5 : t.isSym (c% "-") = false) :
    StartOK c (t :: rest) :=
  ⟨Heads.tok h1, starArgs_none (okFirst_sym2 (okTok_first h1)) h2, fun _ => by simp [nextKw, h3],
    fun _ => by simp [signNext, h4, h5]⟩

theorem StartOK.kind {c : CE} {t : Tok} {rest : List Tok} (h : t.kind ≠ .sym) (h2 : t.kind ≠ .kw)
    (h3 : dotStar rest = false) : StartOK c (t :: rest) :=
  StartOK.leaf (okFirst_kind h h2) (.inr h3) (by simp [Tok.isKw, h2]) (by simp [Tok.isSym, h])
    (by simp [Tok.isSym, h])

theorem StartOK.word {c : CE} {t : Tok} {rest : List Tok} (h : Word t)
    (h3 : dotStar rest = false) : StartOK c (t :: rest) :=
  StartOK.leaf (okFirst_word h) (.inr h3) (word_kw h _ (by decide +kernel)) (word_sym h _) (word_sym h _)

theorem StartOK.par {c : CE} {ts : List Tok} : StartOK c (symT (c% "(") :: ts) :=
  ⟨Heads.tok (by decide +kernel), starArgs_none rfl (.inl rfl), fun _ => rfl, fun _ => rfl⟩

theorem StartOK.key {c : CE} {k : Str} {ts : List Tok} (h1 : okTok (kwT k) = true) (h2 : (kwT k).isKw (c% "NOT") = false)
    (h3 : dotStar ts = false) : StartOK c (kwT k :: ts) :=
  StartOK.leaf h1 (.inr h3) h2 (by simp [Tok.isSym, kwT]) (by simp [Tok.isSym, kwT])

/-- The start of the left operand is the start of the whole. -/
theorem StartOK.left {c d : CE} {ts : List Tok} (h : StartOK c ts) (h1 : 3 ≤ d.lvl → 3 ≤ c.lvl) (h2 : 8 ≤ d.lvl → 8 ≤ c.lvl) :
    StartOK d ts := ⟨h.heads, h.star, fun k => h.notK (h1 k), fun k => h.sgn (h2 k)⟩

theorem rank_le_lvl (c : CE) : c.rank ≤ c.lvl := by
  cases c <;> first | exact Nat.le_refl _ | exact Nat.zero_le _

theorem nextDot_sepTail {s : Tok} (hs : s.isSym (c% ".") = false) {rest : List Tok} (hr : dotStar rest = false)
    {x : List Tok} {xs : List (List Tok)} : ∃ r', sepBy s (x :: xs) ++ rest = x ++ r' ∧ dotStar r' = false := by
  cases xs with
  | nil => exact ⟨rest, rfl, hr⟩
  | cons y ys => exact ⟨s :: (sepBy s (y :: ys) ++ rest), by simp [sepBy], dotStar_of hs⟩

theorem SymIn.dot {ss : List Str} {t : Tok} (h : SymIn ss t) (hs : ss.contains (c% ".") = false) : t.isSym (c% ".") = false := by
  unfold SymIn at h
  rw [List.mem_map] at h
  obtain ⟨k, hk, rfl⟩ := h
  rw [Bool.eq_false_iff] at hs ⊢
  intro hc
  apply hs
  simp only [Tok.isSym, symT, Bool.and_eq_true, beq_iff_eq] at hc
  rw [← hc.2]
  simpa using hk

theorem KwIn.of {ks : List Str} {t : Tok} (h : KwIn ks t) : ∃ k ∈ ks, t = kwT k := by
  unfold KwIn at h
  rw [List.mem_map] at h
  obtain ⟨k, hk, rfl⟩ := h
  exact ⟨k, hk, rfl⟩

theorem flag_dot {b : Bool} {k : Str} {ts : List Tok} (h : dotStar ts = false) :
    dotStar (flag b [kwT k] ++ ts) = false := by
  cases b
  · exact h
  · rfl

theorem arith_lvl (op : Tok) (l r : CE) :
    (CE.arith op l r).lvl = if op.text = c% "+" ∨ op.text = c% "-" then 5 else 6 := rfl

theorem str_dot {s : CStr} (h : PlainStr s) (rest : List Tok) : dotStar (s.yield ++ rest) = false := by
  cases s with
  | basic t =>
    have : t.kind = .str := h
    exact dotStar_of (by simp [CStr.yield, nextSym, Tok.isSym, this])
  | unicode t e =>
    have : t.kind = .ustr := h.1
    cases e <;> exact dotStar_of (by simp [CStr.yield, nextSym, Tok.isSym, this])

theorem StartOK.names {c : CE} {ns rest : List Tok} (hne : ns ≠ []) (h : Words ns) (hr : dotStar rest = false) :
    StartOK c (qname ns ++ rest) := by
  match ns, hne, h with
  | [t], _, h => exact StartOK.word (h t (by simp)) hr
  | [t, u], _, h =>
    exact StartOK.word (h t (by simp)) (by simp [sepBy, dotStar, nextSym, word_sym (h u (by simp))])
  | t :: u :: v :: ns, _, h =>
    exact StartOK.word (h t (by simp)) (by simp [sepBy, dotStar, nextSym, word_sym (h u (by simp))])

mutual
theorem CE.start : ∀ c : CE, c.Plain → ∀ rest, dotStar rest = false → StartOK c (c.yield ++ rest)
  | .or_ l r, h, rest, hr => by
    rw [CE_Plain_or_] at h; rw [CE_yield_or_, List.append_assoc]
    exact (CE.start l h.1 _ rfl).left (by simp [CE.lvl]) (by simp [CE.lvl])
  | .and_ l r, h, rest, hr => by
    rw [CE_Plain_and_] at h; rw [CE_yield_and_, List.append_assoc]
    exact (CE.start l h.1 _ rfl).left (by simp [CE.lvl]) (by simp [CE.lvl])
  | .not_ v, h, rest, hr => by
    rw [CE_yield_not_]
    exact ⟨Heads.tok (by decide +kernel), starArgs_none rfl (.inl rfl), by simp [CE.lvl], by simp [CE.lvl]⟩
  | .cmp op l r, h, rest, hr => by
    rw [CE_Plain_cmp] at h; rw [CE_yield_cmp, List.append_assoc]
    exact (CE.start l h.2.1 (op :: r.yield ++ rest) (dotStar_of (SymIn.dot h.1 (by decide +kernel)))).left (fun _ => by have := rank_le_lvl l; omega) (by simp [CE.lvl])
  | .between neg v l u, h, rest, hr => by
    rw [CE_Plain_between] at h; rw [CE_yield_between, List.append_assoc, List.append_assoc]
    exact (CE.start v h.1 _ (flag_dot rfl)).left (fun _ => by have := rank_le_lvl v; omega) (by simp [CE.lvl])
  | .inList neg v es, h, rest, hr => by
    rw [CE_Plain_inList] at h; rw [CE_yield_inList, List.append_assoc, List.append_assoc]
    exact (CE.start v h.1 _ (flag_dot rfl)).left (fun _ => by have := rank_le_lvl v; omega) (by simp [CE.lvl])
  | .inSub neg v q, h, rest, hr => by
    rw [CE_Plain_inSub] at h; rw [CE_yield_inSub, List.append_assoc, List.append_assoc]
    exact (CE.start v h.1 _ (flag_dot rfl)).left (fun _ => by have := rank_le_lvl v; omega) (by simp [CE.lvl])
  | .like neg v p esc, h, rest, hr => by
    rw [CE_Plain_like] at h; rw [CE_yield_like, List.append_assoc, List.append_assoc]
    exact (CE.start v h.1 _ (flag_dot rfl)).left (fun _ => by have := rank_le_lvl v; omega) (by simp [CE.lvl])
  | .isNull neg v, h, rest, hr => by
    rw [CE_Plain_isNull] at h; rw [CE_yield_isNull, List.append_assoc]
    exact (CE.start v h.1 _ rfl).left (fun _ => by have := rank_le_lvl v; omega) (by simp [CE.lvl])
  | .distinct neg l r, h, rest, hr => by
    rw [CE_Plain_distinct] at h; rw [CE_yield_distinct, List.append_assoc]
    exact (CE.start l h.1 _ rfl).left (fun _ => by have := rank_le_lvl l; omega) (by simp [CE.lvl])
  | .concat l r, h, rest, hr => by
    rw [CE_Plain_concat] at h; rw [CE_yield_concat, List.append_assoc]
    exact (CE.start l h.1 _ rfl).left (fun _ => by have := rank_le_lvl l; omega) (by simp [CE.lvl])
  | .arith op l r, h, rest, hr => by
    rw [CE_Plain_arith] at h; rw [CE_yield_arith, List.append_assoc]
    have hop : op.isSym (c% ".") = false := by
      rcases h.2.2 with ⟨h, _⟩ | ⟨h, _⟩ <;> exact SymIn.dot h (by decide +kernel)
    exact (CE.start l h.1 (op :: r.yield ++ rest) (dotStar_of hop)).left (fun _ => by have := rank_le_lvl l; omega)
      (fun h8 => by
        have : CE.lvl (.arith op l r) ≤ 6 := by rw [arith_lvl]; split <;> omega
        omega)
  | .sign op v, h, rest, hr => by
    rw [CE_Plain_sign] at h; rw [CE_yield_sign]
    have h1 := h.2.2
    rcases h1 with h1 | ⟨h1, _⟩ <;> subst h1 <;>
      exact ⟨Heads.tok (by decide +kernel), starArgs_none rfl (.inl rfl), fun _ => rfl, by simp [CE.lvl]⟩
  | .null, h, rest, hr => by
    rw [CE_yield_null]
    exact StartOK.leaf (by decide +kernel) (.inr hr) (by decide +kernel) rfl rfl
  | .typeCtor n s, h, rest, hr => by
    rw [CE_Plain_typeCtor] at h; rw [CE_yield_typeCtor]
    exact StartOK.word h.1 (str_dot h.2 rest)
  | .num m t, h, rest, hr => by
    rw [CE_Plain_num] at h; rw [CE_yield_num]
    have hk : t.kind ≠ .sym ∧ t.kind ≠ .kw ∧ t.isNum = true := by
      rcases h with h | h | h <;> simp [h, Tok.isNum]
    cases m with
    | false => exact StartOK.kind hk.1 hk.2.1 hr
    | true =>
      refine ⟨Heads.tok (by decide +kernel), starArgs_none rfl (.inl rfl), fun _ => rfl, fun _ => ?_⟩
      simp [flag, signNext, nextIs, hk.2.2]
      rfl
  | .bool t, h, rest, hr => by
    rw [CE_Plain_bool] at h; rw [CE_yield_bool]
    simp only [KwIn, List.map, List.mem_cons, List.not_mem_nil, or_false] at h
    rcases h with h | h <;> subst h <;> exact StartOK.leaf (by decide +kernel) (.inr hr) (by decide +kernel) rfl rfl
  | .str s, h, rest, hr => by
    rw [CE_Plain_str] at h; rw [CE_yield_str]
    cases s with
    | basic t =>
      have : t.kind = .str := h
      exact StartOK.kind (by simp [this]) (by simp [this]) hr
    | unicode t e =>
      have : t.kind = .ustr := h.1
      cases e with
      | none => exact StartOK.kind (by simp [this]) (by simp [this]) hr
      | some e => exact StartOK.kind (by simp [this]) (by simp [this]) rfl
  | .binary t, h, rest, hr => by
    rw [CE_Plain_binary] at h; rw [CE_yield_binary]; exact StartOK.kind (by simp [h]) (by simp [h]) hr
  | .param, h, rest, hr => by
    rw [CE_yield_param]; exact StartOK.leaf (by decide +kernel) (.inr hr) (by decide +kernel) rfl rfl
  | .row es, h, rest, hr => by
    rw [CE_Plain_row] at h; rw [CE_yield_row, inParens, List.cons_append, List.append_assoc]
    exact StartOK.par
  | .rowKw es, h, rest, hr => by
    rw [CE_yield_rowKw]
    exact StartOK.leaf (by decide +kernel) (.inr rfl) (by decide +kernel) rfl rfl
  | .listagg q e sep ov ob, h, rest, hr => by
    rw [CE_yield_listagg]
    exact StartOK.leaf (by decide +kernel) (.inr rfl) (by decide +kernel) rfl rfl
  | .callStar n l f w, h, rest, hr => by
    rw [CE_Plain_callStar] at h; rw [CE_yield_callStar]
    rw [List.append_assoc]
    exact StartOK.names h.1 h.2.1 rfl
  | .call n q args ob f ign w, h, rest, hr => by
    rw [CE_Plain_call] at h; rw [CE_yield_call]
    rw [List.append_assoc]
    exact StartOK.names h.1 h.2.1 rfl
  | .lam p ids b, h, rest, hr => by
    rw [CE_Plain_lam] at h; rw [CE_yield_lam]
    obtain ⟨h2, h3, h4⟩ := h
    cases p with
    | true => exact StartOK.par
    | false =>
      match ids, h2, h3 rfl with
      | [t], h2, _ => exact StartOK.word (h2 t (by simp)) rfl
  | .case v ws e, h, rest, hr => by
    rw [CE_yield_case]
    exact StartOK.leaf (by decide +kernel) (.inl (by decide +kernel)) (by decide +kernel) rfl rfl
  | .cast tr e ty ts, h, rest, hr => by
    rw [CE_yield_cast]
    cases tr <;> exact StartOK.leaf (by decide +kernel) (.inr rfl) (by decide +kernel) rfl rfl
  | .array es, h, rest, hr => by
    rw [CE_yield_array]
    exact StartOK.leaf (by decide +kernel) (.inr rfl) (by decide +kernel) rfl rfl
  | .subscript v i, h, rest, hr => by
    rw [CE_Plain_subscript] at h; rw [CE_yield_subscript, List.append_assoc]
    exact (CE.start v h.1 _ rfl).left (fun _ => by have := rank_le_lvl v; omega) (fun _ => by have := rank_le_lvl v; omega)
  | .col t, h, rest, hr => by rw [CE_Plain_col] at h; rw [CE_yield_col]; exact StartOK.word h hr
  | .deref v n, h, rest, hr => by
    rw [CE_Plain_deref] at h; rw [CE_yield_deref]
    rw [List.append_assoc]
    exact (CE.start v h.1 (symT (c% ".") :: n :: rest) (by simp [dotStar, nextSym, word_sym h.2.2])).left
      (fun _ => by have := rank_le_lvl v; omega) (fun _ => by have := rank_le_lvl v; omega)
  | .dateTime t p, h, rest, hr => by
    rw [CE_Plain_dateTime] at h; rw [CE_yield_dateTime]
    rcases h with ⟨rfl, rfl⟩ | ⟨h1, h2⟩
    · exact StartOK.leaf (by decide +kernel) (.inl (by decide +kernel)) (by decide +kernel) rfl rfl
    · simp only [KwIn, List.map, List.mem_cons, List.not_mem_nil, or_false] at h1
      rcases h1 with h | h | h | h <;> subst h <;>
        exact StartOK.leaf (by decide +kernel) (.inl (by decide +kernel)) (by decide +kernel) rfl rfl
  | .session t, h, rest, hr => by
    rw [CE_Plain_session] at h; rw [CE_yield_session]
    simp only [KwIn, List.map, List.mem_cons, List.not_mem_nil, or_false] at h
    rcases h with h | h | h | h <;> subst h <;>
      exact StartOK.leaf (by decide +kernel) (.inl (by decide +kernel)) (by decide +kernel) rfl rfl
  | .exists_ q, h, rest, hr => by
    rw [CE_yield_exists_]
    exact StartOK.key (by decide +kernel) (by decide +kernel) rfl
  | .position l r, h, rest, hr => by
    rw [CE_yield_position]
    exact StartOK.key (by decide +kernel) (by decide +kernel) rfl
  | .substring v f n, h, rest, hr => by
    rw [CE_yield_substring]
    exact StartOK.key (by decide +kernel) (by decide +kernel) rfl
  | .extract t v, h, rest, hr => by
    rw [CE_yield_extract]
    exact StartOK.key (by decide +kernel) (by decide +kernel) rfl
  | .trimFrom s c v, h, rest, hr => by
    rw [CE_yield_trimFrom]
    exact StartOK.key (by decide +kernel) (by decide +kernel) rfl
  | .trim v c, h, rest, hr => by
    rw [CE_yield_trim]
    exact StartOK.key (by decide +kernel) (by decide +kernel) rfl
  | .normalize v f, h, rest, hr => by
    rw [CE_yield_normalize]
    exact StartOK.key (by decide +kernel) (by decide +kernel) rfl
  | .doublePrecision s, h, rest, hr => by
    rw [CE_yield_doublePrecision]
    exact StartOK.key (by decide +kernel) (by decide +kernel) rfl
  | .sub q, h, rest, hr => by
    rw [CE_yield_sub]
    exact StartOK.par
  | .interval sg s f t, h, rest, hr => by
    rw [CE_Plain_interval] at h; rw [CE_yield_interval, List.cons_append, List.append_assoc, List.append_assoc]
    refine StartOK.key (by decide +kernel) (by decide +kernel) ?_
    cases sg with
    | none => exact str_dot h.2.1 _
    | some t =>
      obtain ⟨k, hk, rfl⟩ : ∃ k ∈ [c% "+", c% "-"], symT k = t := List.mem_map.1 (h.1 t rfl)
      simp only [List.mem_cons, List.not_mem_nil, or_false] at hk
      rcases hk with rfl | rfl <;> rfl
  | .quantified op k l q, h, rest, hr => by
    rw [CE_Plain_quantified] at h; rw [CE_yield_quantified, List.append_assoc]
    exact (CE.start l h.2.2.1 (op :: (k :: inParens q.yield) ++ rest) (dotStar_of (SymIn.dot h.1 (by decide +kernel)))).left
      (fun _ => by have := rank_le_lvl l; omega) (by simp [CE.lvl])
  | .atZone v z, h, rest, hr => by
    rw [CE_Plain_atZone] at h; rw [CE_yield_atZone, List.append_assoc]
    exact (CE.start v h.1 _ rfl).left (fun _ => by have := rank_le_lvl v; omega) (by simp [CE.lvl])
  | .grouping ns, h, rest, hr => by
    rw [CE_yield_grouping, inParens]
    exact ⟨Heads.grouping, starArgs_none (by decide +kernel) (.inr rfl), fun _ => rfl, fun _ => rfl⟩
  | .paren e, h, rest, hr => by
    rw [CE_yield_paren]
    exact StartOK.par
theorem CE.starts : ∀ es : List CE, es ≠ [] → CE.Plains es → ∀ rest, dotStar rest = false →
    Heads (commas (CE.yields es) ++ rest) ∧ starArgs (commas (CE.yields es) ++ rest) = none
  | [], h, _, _, _ => absurd rfl h
  | e :: es, _, h, rest, hr => by
    rw [CE_Plains_cons] at h; rw [CE_yields_cons]
    obtain ⟨r', h1, h2⟩ := nextDot_sepTail (s := symT (c% ",")) rfl hr (x := e.yield) (xs := CE.yields es)
    rw [commas, h1]
    exact ⟨(CE.start e h.1 r' h2).heads, (CE.start e h.1 r' h2).star⟩
end

/-! ## Expressions are not taken for queries -/

/-- After this closing parenthesis a query goes on or ends. -/
def closeNext (ts : List Tok) : Bool := nextIs (fun u => u.isSym (c% ")") || u.isKwOf queryMore) ts

theorem close_kw {k : Str} {ts : List Tok} (h : (kwT k).isKwOf queryMore = false) : closeNext (kwT k :: ts) = false := by
  rw [closeNext, nextIs, h]; rfl

theorem close_flag {b : Bool} {k : Str} {ts : List Tok} (h : (kwT k).isKwOf queryMore = false) :
    closeNext (flag b [kwT (c% "NOT")] ++ kwT k :: ts) = false := by
  cases b
  · exact close_kw h
  · exact close_kw (by decide +kernel)

theorem close_symIn {ss : List Str} {t : Tok} {ts : List Tok} (h : SymIn ss t) (hs : ss.contains (c% ")") = false) :
    closeNext (t :: ts) = false := by
  unfold SymIn at h
  rw [List.mem_map] at h
  obtain ⟨k, hk, rfl⟩ := h
  have : k ≠ c% ")" := by
    rintro rfl
    rw [List.contains_iff_mem.2 hk] at hs
    cases hs
  rw [closeNext, nextIs]
  simp [Tok.isSym, Tok.isKwOf, symT, this]

theorem qnw_tok {t : Tok} {ts : List Tok} (h : okFirst t = true) (h2 : t.isSym (c% "(") = false) : qnwStart (t :: ts) = false := by
  rw [qnwStart, h2, if_neg (by simp)]
  exact okFirst_kwOf h _ (by decide +kernel)

theorem qnw_word {t : Tok} {ts : List Tok} (h : Word t) : qnwStart (t :: ts) = false :=
  qnw_tok (okTok_first (okFirst_word h)) (word_sym h _)

theorem qnw_kind {t : Tok} {ts : List Tok} (h : t.kind ≠ .sym) (h2 : t.kind ≠ .kw) : qnwStart (t :: ts) = false :=
  qnw_tok (okTok_first (okFirst_kind h h2)) (by simp [Tok.isSym, h])

theorem qnw_names {ns rest : List Tok} (hne : ns ≠ []) (h : Words ns) : qnwStart (qname ns ++ rest) = false := by
  match ns, hne, h with
  | [t], _, h => exact qnw_word (h t (by simp))
  | t :: u :: ns, _, h => exact qnw_word (h t (by simp))

theorem qnw_par {ts : List Tok} (h : qnwStart ts = false) : qnwStart (symT (c% "(") :: ts) = false := by
  rw [qnwStart, h]; rfl

theorem after_close {x : List Tok} (hb : Bal x) (f : List Tok → Bool) (rest : List Tok) :
    afterClose f (x ++ symT (c% ")") :: rest) = f rest := by
  rw [afterClose, hb, scan_rpar0]

mutual
theorem CE.notQ : ∀ c : CE, c.Plain → ∀ rest, (c.isSub = true → closeNext rest = false) → qnwStart (c.yield ++ rest) = false
  | .or_ l r, h, rest, _ => by
    rw [CE_Plain_or_] at h; rw [CE_yield_or_, List.append_assoc]
    exact CE.notQ l h.1 _ fun _ => close_kw (by decide +kernel)
  | .and_ l r, h, rest, _ => by
    rw [CE_Plain_and_] at h; rw [CE_yield_and_, List.append_assoc]
    exact CE.notQ l h.1 _ fun _ => close_kw (by decide +kernel)
  | .cmp op l r, h, rest, _ => by
    rw [CE_Plain_cmp] at h; rw [CE_yield_cmp, List.append_assoc]
    exact CE.notQ l h.2.1 _ fun _ => close_symIn h.1 (by decide +kernel)
  | .between neg v l u, h, rest, _ => by
    rw [CE_Plain_between] at h; rw [CE_yield_between, List.append_assoc, List.append_assoc]
    exact CE.notQ v h.1 _ fun _ => close_flag (by decide +kernel)
  | .inList neg v es, h, rest, _ => by
    rw [CE_Plain_inList] at h; rw [CE_yield_inList, List.append_assoc, List.append_assoc]
    exact CE.notQ v h.1 _ fun _ => close_flag (by decide +kernel)
  | .inSub neg v q, h, rest, _ => by
    rw [CE_Plain_inSub] at h; rw [CE_yield_inSub, List.append_assoc, List.append_assoc]
    exact CE.notQ v h.1 _ fun _ => close_flag (by decide +kernel)
  | .like neg v p esc, h, rest, _ => by
    rw [CE_Plain_like] at h; rw [CE_yield_like, List.append_assoc, List.append_assoc]
    exact CE.notQ v h.1 _ fun _ => close_flag (by decide +kernel)
  | .isNull neg v, h, rest, _ => by
    rw [CE_Plain_isNull] at h; rw [CE_yield_isNull, List.append_assoc]
    exact CE.notQ v h.1 _ fun _ => close_kw (by decide +kernel)
  | .distinct neg l r, h, rest, _ => by
    rw [CE_Plain_distinct] at h; rw [CE_yield_distinct, List.append_assoc]
    exact CE.notQ l h.1 _ fun _ => close_kw (by decide +kernel)
  | .quantified op k l q, h, rest, _ => by
    rw [CE_Plain_quantified] at h; rw [CE_yield_quantified, List.append_assoc]
    exact CE.notQ l h.2.2.1 _ fun _ => close_symIn h.1 (by decide +kernel)
  | .concat l r, h, rest, _ => by
    rw [CE_Plain_concat] at h; rw [CE_yield_concat, List.append_assoc]
    exact CE.notQ l h.1 _ fun _ => rfl
  | .arith op l r, h, rest, _ => by
    rw [CE_Plain_arith] at h; rw [CE_yield_arith, List.append_assoc]
    refine CE.notQ l h.1 _ fun _ => ?_
    rcases h.2.2 with ⟨h, _⟩ | ⟨h, _⟩ <;> exact close_symIn h (by decide +kernel)
  | .atZone v z, h, rest, _ => by
    rw [CE_Plain_atZone] at h; rw [CE_yield_atZone, List.append_assoc]
    exact CE.notQ v h.1 _ fun _ => close_kw (by decide +kernel)
  | .sign op v, h, rest, _ => by
    rw [CE_Plain_sign] at h; rw [CE_yield_sign]
    rcases h.2.2 with h1 | ⟨h1, _⟩ <;> subst h1 <;> exact qnw_tok (by decide +kernel) rfl
  | .num m t, h, rest, _ => by
    rw [CE_Plain_num] at h; rw [CE_yield_num]
    cases m with
    | false => rcases h with h | h | h <;> exact qnw_kind (by simp [h]) (by simp [h])
    | true => exact qnw_tok (by decide +kernel) rfl
  | .bool t, h, rest, _ => by
    rw [CE_Plain_bool] at h; rw [CE_yield_bool]
    simp only [KwIn, List.map, List.mem_cons, List.not_mem_nil, or_false] at h
    rcases h with h | h <;> subst h <;> exact qnw_tok (by decide +kernel) rfl
  | .str s, h, rest, _ => by
    rw [CE_Plain_str] at h; rw [CE_yield_str]
    cases s with
    | basic t =>
      have : t.kind = .str := h
      exact qnw_kind (by simp [this]) (by simp [this])
    | unicode t e =>
      have : t.kind = .ustr := h.1
      cases e <;> exact qnw_kind (by simp [this]) (by simp [this])
  | .binary t, h, rest, _ => by
    rw [CE_Plain_binary] at h; rw [CE_yield_binary]; exact qnw_kind (by simp [h]) (by simp [h])
  | .typeCtor n s, h, rest, _ => by
    rw [CE_Plain_typeCtor] at h; rw [CE_yield_typeCtor]; exact qnw_word h.1
  | .col t, h, rest, _ => by rw [CE_Plain_col] at h; rw [CE_yield_col]; exact qnw_word h
  | .callStar n l f w, h, rest, _ => by
    rw [CE_Plain_callStar] at h; rw [CE_yield_callStar, List.append_assoc]; exact qnw_names h.1 h.2.1
  | .call n q args ob f ign w, h, rest, _ => by
    rw [CE_Plain_call] at h; rw [CE_yield_call, List.append_assoc]; exact qnw_names h.1 h.2.1
  | .cast tr e ty ts, h, rest, _ => by
    rw [CE_yield_cast]
    cases tr <;> exact qnw_tok (by decide +kernel) rfl
  | .dateTime t p, h, rest, _ => by
    rw [CE_Plain_dateTime] at h; rw [CE_yield_dateTime]
    rcases h with ⟨rfl, rfl⟩ | ⟨h1, h2⟩
    · exact qnw_tok (by decide +kernel) rfl
    · simp only [KwIn, List.map, List.mem_cons, List.not_mem_nil, or_false] at h1
      rcases h1 with h | h | h | h <;> subst h <;> exact qnw_tok (by decide +kernel) rfl
  | .session t, h, rest, _ => by
    rw [CE_Plain_session] at h; rw [CE_yield_session]
    simp only [KwIn, List.map, List.mem_cons, List.not_mem_nil, or_false] at h
    rcases h with h | h | h | h <;> subst h <;> exact qnw_tok (by decide +kernel) rfl
  | .not_ v, h, rest, _ => by rw [CE_yield_not_]; exact qnw_tok (by decide +kernel) rfl
  | .null, h, rest, _ => by rw [CE_yield_null]; exact qnw_tok (by decide +kernel) rfl
  | .param, h, rest, _ => by rw [CE_yield_param]; exact qnw_tok (by decide +kernel) rfl
  | .interval sg s f t, h, rest, _ => by rw [CE_yield_interval]; exact qnw_tok (by decide +kernel) rfl
  | .doublePrecision s, h, rest, _ => by rw [CE_yield_doublePrecision]; exact qnw_tok (by decide +kernel) rfl
  | .rowKw es, h, rest, _ => by rw [CE_yield_rowKw]; exact qnw_tok (by decide +kernel) rfl
  | .listagg q e sep ov ob, h, rest, _ => by rw [CE_yield_listagg]; exact qnw_tok (by decide +kernel) rfl
  | .case v ws e, h, rest, _ => by rw [CE_yield_case]; exact qnw_tok (by decide +kernel) rfl
  | .array es, h, rest, _ => by rw [CE_yield_array]; exact qnw_tok (by decide +kernel) rfl
  | .normalize v f, h, rest, _ => by rw [CE_yield_normalize]; exact qnw_tok (by decide +kernel) rfl
  | .exists_ q, h, rest, _ => by rw [CE_yield_exists_]; exact qnw_tok (by decide +kernel) rfl
  | .position l r, h, rest, _ => by rw [CE_yield_position]; exact qnw_tok (by decide +kernel) rfl
  | .substring v f n, h, rest, _ => by rw [CE_yield_substring]; exact qnw_tok (by decide +kernel) rfl
  | .extract t v, h, rest, _ => by rw [CE_yield_extract]; exact qnw_tok (by decide +kernel) rfl
  | .trimFrom s c v, h, rest, _ => by rw [CE_yield_trimFrom]; exact qnw_tok (by decide +kernel) rfl
  | .trim v c, h, rest, _ => by rw [CE_yield_trim]; exact qnw_tok (by decide +kernel) rfl
  | .grouping ns, h, rest, _ => by rw [CE_yield_grouping]; exact qnw_tok (by decide +kernel) rfl
  | .subscript v i, h, rest, _ => by
    rw [CE_Plain_subscript] at h; rw [CE_yield_subscript, List.append_assoc]
    exact CE.notQ v h.1 _ fun _ => rfl
  | .deref v n, h, rest, _ => by
    rw [CE_Plain_deref] at h; rw [CE_yield_deref, List.append_assoc]
    exact CE.notQ v h.1 _ fun _ => rfl
  | .row es, h, rest, _ => by
    rw [CE_Plain_row] at h; rw [CE_yield_row, inParens, List.cons_append, List.append_assoc]
    exact qnw_par (CE.notQs es (by intro h0; rw [h0] at h; simp at h) h.2 _ fun q h0 => by rw [h0] at h; simp at h)
  | .lam p ids b, h, rest, _ => by
    rw [CE_Plain_lam] at h; rw [CE_yield_lam]
    obtain ⟨h2, h3, h4⟩ := h
    cases p with
    | true =>
      refine qnw_par ?_
      match ids, h2 with
      | [], _ => rfl
      | [t], h2 => exact qnw_word (h2 t (by simp))
      | t :: u :: ids, h2 => exact qnw_word (h2 t (by simp))
    | false =>
      match ids, h2, h3 rfl with
      | [t], h2, _ => exact qnw_word (h2 t (by simp))
  | .sub q, h, rest, hr => by
    rw [CE_Plain_sub] at h; rw [CE_yield_sub, inParens, List.cons_append, List.append_assoc, List.cons_append, List.nil_append]
    rw [qnwStart, if_pos (show Tok.isSym (c% "(") (symT (c% "(")) = true from rfl), after_close (CQ.bal q h)]
    have : nextIs (fun u => u.isSym (c% ")") || u.isKwOf queryMore) rest = false := hr rfl
    rw [this, Bool.and_false]
  | .paren e, h, rest, _ => by
    rw [CE_Plain_paren] at h; rw [CE_yield_paren, inParens, List.cons_append, List.append_assoc]
    exact qnw_par (CE.notQ e h.1 _ fun h' => by rw [h.2] at h'; cases h')
theorem CE.notQs : ∀ es : List CE, es ≠ [] → CE.Plains es → ∀ rest, (∀ q, es = [.sub q] → closeNext rest = false) →
    qnwStart (commas (CE.yields es) ++ rest) = false
  | [], h, _, _, _ => absurd rfl h
  | [e], _, h, rest, hr => by
    rw [CE_Plains_cons] at h; rw [CE_yields_cons, CE_yields_nil, commas, sepBy]
    refine CE.notQ e h.1 rest fun he => ?_
    cases e <;> first | exact hr _ rfl | (simp [CE.isSub] at he; done)
  | e :: f :: es, _, h, rest, hr => by
    rw [CE_Plains_cons] at h; rw [CE_yields_cons, CE_yields_cons, commas, sepBy, List.append_assoc]
    exact CE.notQ e h.1 _ fun _ => rfl
end

theorem Heads.notWith {ts : List Tok} (h : Heads ts) (hq : qnwStart ts = false) : qStart ts = false := by
  obtain ⟨t, r, rfl, ht⟩ := h.first
  rw [Treeno.qStart, hq, nextKw, okFirst_kw ht _ (by decide +kernel)]
  rfl

/-- The expressions of an IN list are not taken for a query. -/
theorem exprs_notIn {es : List CE} (hne : es ≠ []) (h : CE.Plains es) (rest : List Tok) :
    inStart (commas (CE.yields es) ++ symT (c% ")") :: rest) = false := by
  have hh := (CE.starts es hne h (symT (c% ")") :: rest) rfl).1
  by_cases he : ∃ q, es = [.sub q]
  · obtain ⟨q, rfl⟩ := he
    rw [CE_Plains_cons, CE_Plain_sub] at h
    rw [CE_yields_cons, CE_yields_nil, commas, sepBy, CE_yield_sub, inParens, List.cons_append, List.append_assoc, List.cons_append,
      List.nil_append, inStart]
    rw [show nextSym (c% "(") (symT (c% "(") :: (q.yield ++ symT (c% ")") :: symT (c% ")") :: rest)) = true from rfl,
      List.drop_one, List.tail_cons, after_close (CQ.bal q h.1)]
    rw [nextIs, show Tok.isKwOf queryMore (symT (c% ")")) = false from by decide +kernel]
    simp
  · rw [inStart, hh.notWith (CE.notQs es hne h _ fun q hq => absurd ⟨q, hq⟩ he)]
    rfl

/-! ## Grouping expressions that begin with a parenthesis -/

/-- An expression goes on here. -/
def moreNext (ts : List Tok) : Bool := nextIs (fun t => t.rank.isSome) ts

/-- The tokens are not one pair of parentheses that nothing goes on after. -/
def Opened (ts : List Tok) : Prop :=
  (nextSym (c% "(") ts && afterClose (fun r => !nextIs (fun t => t.rank.isSome) r) (ts.drop 1)) = false

theorem more_flag {b : Bool} {k : Str} {ts : List Tok} (h : (kwT k).rank.isSome = true) :
    moreNext (flag b [kwT (c% "NOT")] ++ kwT k :: ts) = true := by
  cases b
  · exact h
  · rfl

theorem more_symIn {ss : List Str} {t : Tok} {ts : List Tok} (h : SymIn ss t) (hs : ss.all (fun s => (symT s).rank.isSome) = true) :
    moreNext (t :: ts) = true := by
  unfold SymIn at h
  rw [List.mem_map] at h
  obtain ⟨s, h1, rfl⟩ := h
  exact List.all_eq_true.1 hs s h1

theorem opened_sym {t : Tok} {ts : List Tok} (h2 : t.isSym (c% "(") = false) : Opened (t :: ts) := by
  rw [Opened, nextSym, h2]; rfl

theorem opened_tok {t : Tok} {ts : List Tok} (h : okFirst t = true) (h2 : t.isSym (c% "(") = false) : Opened (t :: ts) := opened_sym h2

theorem opened_kind {t : Tok} {ts : List Tok} (h : t.kind ≠ .sym) (h2 : t.kind ≠ .kw) : Opened (t :: ts) :=
  opened_sym (by simp [Tok.isSym, h])

theorem opened_word {t : Tok} {ts : List Tok} (h : Word t) : Opened (t :: ts) := opened_sym (word_sym h _)

theorem opened_names {ns rest : List Tok} (hne : ns ≠ []) (h : Words ns) : Opened (qname ns ++ rest) := by
  match ns, hne, h with
  | [t], _, h => exact opened_word (h t (by simp))
  | t :: u :: ns, _, h => exact opened_word (h t (by simp))

theorem opened_inParens {x rest : List Tok} (hb : Bal x) (h : moreNext rest = true) : Opened (inParens x ++ rest) := by
  rw [inParens, List.cons_append, List.append_assoc]
  show (true && afterClose _ (x ++ symT (c% ")") :: rest)) = false
  rw [after_close hb]
  have : nextIs (fun t => t.rank.isSome) rest = true := h
  rw [this]; rfl

theorem CE.opened : ∀ c : CE, c.Plain → ∀ rest, (c.isPar = true → moreNext rest = true) → Opened (c.yield ++ rest)
  | .or_ l r, h, rest, _ => by
    rw [CE_Plain_or_] at h; rw [CE_yield_or_, List.append_assoc]
    exact CE.opened l h.1 _ fun _ => rfl
  | .and_ l r, h, rest, _ => by
    rw [CE_Plain_and_] at h; rw [CE_yield_and_, List.append_assoc]
    exact CE.opened l h.1 _ fun _ => rfl
  | .cmp op l r, h, rest, _ => by
    rw [CE_Plain_cmp] at h; rw [CE_yield_cmp, List.append_assoc]
    exact CE.opened l h.2.1 _ fun _ => more_symIn h.1 (by decide +kernel)
  | .between neg v l u, h, rest, _ => by
    rw [CE_Plain_between] at h; rw [CE_yield_between, List.append_assoc, List.append_assoc]
    exact CE.opened v h.1 _ fun _ => more_flag (by decide +kernel)
  | .inList neg v es, h, rest, _ => by
    rw [CE_Plain_inList] at h; rw [CE_yield_inList, List.append_assoc, List.append_assoc]
    exact CE.opened v h.1 _ fun _ => more_flag (by decide +kernel)
  | .inSub neg v q, h, rest, _ => by
    rw [CE_Plain_inSub] at h; rw [CE_yield_inSub, List.append_assoc, List.append_assoc]
    exact CE.opened v h.1 _ fun _ => more_flag (by decide +kernel)
  | .like neg v p esc, h, rest, _ => by
    rw [CE_Plain_like] at h; rw [CE_yield_like, List.append_assoc, List.append_assoc]
    exact CE.opened v h.1 _ fun _ => more_flag (by decide +kernel)
  | .isNull neg v, h, rest, _ => by
    rw [CE_Plain_isNull] at h; rw [CE_yield_isNull, List.append_assoc]
    exact CE.opened v h.1 _ fun _ => rfl
  | .distinct neg l r, h, rest, _ => by
    rw [CE_Plain_distinct] at h; rw [CE_yield_distinct, List.append_assoc]
    exact CE.opened l h.1 _ fun _ => rfl
  | .quantified op k l q, h, rest, _ => by
    rw [CE_Plain_quantified] at h; rw [CE_yield_quantified, List.append_assoc]
    exact CE.opened l h.2.2.1 _ fun _ => more_symIn h.1 (by decide +kernel)
  | .concat l r, h, rest, _ => by
    rw [CE_Plain_concat] at h; rw [CE_yield_concat, List.append_assoc]
    exact CE.opened l h.1 _ fun _ => rfl
  | .arith op l r, h, rest, _ => by
    rw [CE_Plain_arith] at h; rw [CE_yield_arith, List.append_assoc]
    refine CE.opened l h.1 _ fun _ => ?_
    rcases h.2.2 with ⟨h, _⟩ | ⟨h, _⟩ <;> exact more_symIn h (by decide +kernel)
  | .atZone v z, h, rest, _ => by
    rw [CE_Plain_atZone] at h; rw [CE_yield_atZone, List.append_assoc]
    exact CE.opened v h.1 _ fun _ => rfl
  | .sign op v, h, rest, _ => by
    rw [CE_Plain_sign] at h; rw [CE_yield_sign]
    rcases h.2.2 with h1 | ⟨h1, _⟩ <;> subst h1 <;> exact opened_tok (by decide +kernel) rfl
  | .num m t, h, rest, _ => by
    rw [CE_Plain_num] at h; rw [CE_yield_num]
    cases m with
    | false => rcases h with h | h | h <;> exact opened_kind (by simp [h]) (by simp [h])
    | true => exact opened_tok (by decide +kernel) rfl
  | .bool t, h, rest, _ => by
    rw [CE_Plain_bool] at h; rw [CE_yield_bool]
    simp only [KwIn, List.map, List.mem_cons, List.not_mem_nil, or_false] at h
    rcases h with h | h <;> subst h <;> exact opened_tok (by decide +kernel) rfl
  | .str s, h, rest, _ => by
    rw [CE_Plain_str] at h; rw [CE_yield_str]
    cases s with
    | basic t =>
      have : t.kind = .str := h
      exact opened_kind (by simp [this]) (by simp [this])
    | unicode t e =>
      have : t.kind = .ustr := h.1
      cases e <;> exact opened_kind (by simp [this]) (by simp [this])
  | .binary t, h, rest, _ => by
    rw [CE_Plain_binary] at h; rw [CE_yield_binary]; exact opened_kind (by simp [h]) (by simp [h])
  | .typeCtor n s, h, rest, _ => by
    rw [CE_Plain_typeCtor] at h; rw [CE_yield_typeCtor]; exact opened_word h.1
  | .col t, h, rest, _ => by rw [CE_Plain_col] at h; rw [CE_yield_col]; exact opened_word h
  | .callStar n l f w, h, rest, _ => by
    rw [CE_Plain_callStar] at h; rw [CE_yield_callStar, List.append_assoc]; exact opened_names h.1 h.2.1
  | .call n q args ob f ign w, h, rest, _ => by
    rw [CE_Plain_call] at h; rw [CE_yield_call, List.append_assoc]; exact opened_names h.1 h.2.1
  | .cast tr e ty ts, h, rest, _ => by
    rw [CE_yield_cast]
    cases tr <;> exact opened_tok (by decide +kernel) rfl
  | .dateTime t p, h, rest, _ => by
    rw [CE_Plain_dateTime] at h; rw [CE_yield_dateTime]
    rcases h with ⟨rfl, rfl⟩ | ⟨h1, h2⟩
    · exact opened_tok (by decide +kernel) rfl
    · simp only [KwIn, List.map, List.mem_cons, List.not_mem_nil, or_false] at h1
      rcases h1 with h | h | h | h <;> subst h <;> exact opened_tok (by decide +kernel) rfl
  | .session t, h, rest, _ => by
    rw [CE_Plain_session] at h; rw [CE_yield_session]
    simp only [KwIn, List.map, List.mem_cons, List.not_mem_nil, or_false] at h
    rcases h with h | h | h | h <;> subst h <;> exact opened_tok (by decide +kernel) rfl
  | .not_ v, h, rest, _ => by rw [CE_yield_not_]; exact opened_tok (by decide +kernel) rfl
  | .null, h, rest, _ => by rw [CE_yield_null]; exact opened_tok (by decide +kernel) rfl
  | .param, h, rest, _ => by rw [CE_yield_param]; exact opened_tok (by decide +kernel) rfl
  | .interval sg s f t, h, rest, _ => by rw [CE_yield_interval]; exact opened_tok (by decide +kernel) rfl
  | .doublePrecision s, h, rest, _ => by rw [CE_yield_doublePrecision]; exact opened_tok (by decide +kernel) rfl
  | .rowKw es, h, rest, _ => by rw [CE_yield_rowKw]; exact opened_tok (by decide +kernel) rfl
  | .listagg q e sep ov ob, h, rest, _ => by rw [CE_yield_listagg]; exact opened_tok (by decide +kernel) rfl
  | .case v ws e, h, rest, _ => by rw [CE_yield_case]; exact opened_tok (by decide +kernel) rfl
  | .array es, h, rest, _ => by rw [CE_yield_array]; exact opened_tok (by decide +kernel) rfl
  | .normalize v f, h, rest, _ => by rw [CE_yield_normalize]; exact opened_tok (by decide +kernel) rfl
  | .exists_ q, h, rest, _ => by rw [CE_yield_exists_]; exact opened_tok (by decide +kernel) rfl
  | .position l r, h, rest, _ => by rw [CE_yield_position]; exact opened_tok (by decide +kernel) rfl
  | .substring v f n, h, rest, _ => by rw [CE_yield_substring]; exact opened_tok (by decide +kernel) rfl
  | .extract t v, h, rest, _ => by rw [CE_yield_extract]; exact opened_tok (by decide +kernel) rfl
  | .trimFrom s c v, h, rest, _ => by rw [CE_yield_trimFrom]; exact opened_tok (by decide +kernel) rfl
  | .trim v c, h, rest, _ => by rw [CE_yield_trim]; exact opened_tok (by decide +kernel) rfl
  | .grouping ns, h, rest, _ => by rw [CE_yield_grouping]; exact opened_tok (by decide +kernel) rfl
  | .subscript v i, h, rest, _ => by
    rw [CE_Plain_subscript] at h; rw [CE_yield_subscript, List.append_assoc]
    exact CE.opened v h.1 _ fun _ => rfl
  | .deref v n, h, rest, _ => by
    rw [CE_Plain_deref] at h; rw [CE_yield_deref, List.append_assoc]
    exact CE.opened v h.1 _ fun _ => rfl
  | .row es, h, rest, hr => by
    rw [CE_Plain_row] at h; rw [CE_yield_row]
    exact opened_inParens (Bal.commas (CE.bals es h.2)) (hr rfl)
  | .lam p ids b, h, rest, _ => by
    rw [CE_Plain_lam] at h; rw [CE_yield_lam]
    obtain ⟨h2, h3, h4⟩ := h
    cases p with
    | true =>
      rw [List.append_assoc]
      exact opened_inParens (Bal.commas (BalAll.words h2)) rfl
    | false =>
      match ids, h2, h3 rfl with
      | [t], h2, _ => exact opened_word (h2 t (by simp))
  | .sub q, h, rest, hr => by
    rw [CE_Plain_sub] at h; rw [CE_yield_sub]
    exact opened_inParens (CQ.bal q h) (hr rfl)
  | .paren e, h, rest, hr => by
    rw [CE_Plain_paren] at h; rw [CE_yield_paren]
    exact opened_inParens (CE.bal e h.1) (hr rfl)

end Treeno
