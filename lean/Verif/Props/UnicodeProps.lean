import Verif.Lemmas.Unicode
import Verif.Lemmas.PyEscape
import Verif.Props.ParseProps
import Verif.Props.CallProps
import Verif.Props.ReadingProps
import Verif.Props.RoundTripLimits
/-!
# String literals with Unicode escapes (C70)
-/
set_option autoImplicit false
namespace Treeno.Props
open Treeno Spec

/-! ## Helpers -/

theorem toks_ustring (n rest : Str) (hn : '\'' ∉ n) (h : NotQuote '\'' rest) :
    toks ('U' :: '&' :: '\'' :: (n ++ '\'' :: rest)) = ustrTok n :: toks rest := by
  have hl : lexOne 'U' ('&' :: '\'' :: (n ++ '\'' :: rest)) = (ustrTok n, rest) := by
    rw [lexOne_id _ (by decide +kernel)]
    show (match quotedBody '\'' (n ++ '\'' :: rest) with
      | some (b, r') => ((⟨.ustr, 'U' :: '&' :: '\'' :: b⟩ : Tok), r')
      | none => wordTok _) = _
    rw [quotedBody_plain _ _ _ hn h]
    rfl
  rw [toks_step hl]
  rfl

/-- The literal of a text. -/
def textLit (v : Str) : Expr := .lit (some (.str v)) (.varchar (some v.length))

theorem str_conv {s : CStr} {v : Str} (h : s.conv = .ok v) : (CE.str s).conv = .ok (textLit v) := by
  rw [CE_conv_str, h]; rfl

theorem str_conv_inv {s : CStr} {e : Expr} (h : (CE.str s).conv = .ok e) : ∃ v, s.conv = .ok v ∧ e = textLit v := by
  rw [CE_conv_str] at h
  obtain ⟨v, hv, h⟩ := bind_ok h
  exact ⟨v, hv, (Except.ok.inj h).symm⟩

/-- `U&'b'` -/
def unicodeLit (b : Str) : Str := c% "U&'" ++ b ++ c% "'"

theorem unicode_read (b : Str) (h : '\'' ∉ b) : expressionFromSql (unicodeLit b) = (CE.str (.unicode (ustrTok b) none)).conv := by
  refine C53_expression_complete _ _ ?_ ?_
  · rw [CE_Plain_str]
    exact ⟨rfl, fun _ hx => nomatch hx⟩
  · have := toks_ustring b [] h (fun hx => nomatch hx)
    rw [CE_yield_str]
    show toks (unicodeLit b) = [ustrTok b]
    rw [show unicodeLit b = 'U' :: '&' :: '\'' :: (b ++ ['\'']) by simp [unicodeLit], this]
    rfl

/-! ## Claims -/

/-- **C70 (the backslash as escape character).** A literal `U&'...'` whose parts are characters and escapes of four
hexadecimal digits is read as the text of the characters that the parts stand for, with the length of that text in its
type.  Left out: escapes of six digits and the doubled escape character, see `C70_six_digits_fails` and
`C70_doubled_fails`; quotes, see `C57_quoted_string_false`. -/
theorem C70_read_partial (ps : List Piece) (h : ∀ p ∈ ps, p.Ok '\\') :
    expressionFromSql (unicodeLit (pieces '\\' ps)) = .ok (.lit (some (.str (spelled ps))) (.varchar (some (spelled ps).length))) := by
  rw [unicode_read _ (no_quote (by decide) ps h)]
  exact str_conv (unicodeText_pieces rfl (by decide) ps h)

/-- A character above U+FFFF, one above U+00FF and an escape; the digits in both cases. -/
example : expressionFromSql (unicodeLit (c% "snow\\2603 é 😀\\00E9\\00e9")) =
    .ok (.lit (some (.str (c% "snow☃ é 😀éé"))) (.varchar (some 11))) := by
  have h := C70_read_partial [.char 's', .char 'n', .char 'o', .char 'w', .code (c% "2603"), .char ' ', .char 'é', .char ' ', .char '😀',
    .code (c% "00E9"), .code (c% "00e9")] (by
      intro p hp
      simp only [List.mem_cons, List.not_mem_nil, or_false] at hp
      rcases hp with rfl | rfl | rfl | rfl | rfl | rfl | rfl | rfl | rfl | rfl | rfl <;>
        first
        | exact ⟨by decide, by decide, by decide⟩
        | exact ⟨⟨rfl, by decide +kernel, by decide +kernel⟩, by decide⟩)
  rw [show spelled [.char 's', .char 'n', .char 'o', .char 'w', .code (c% "2603"), .char ' ', .char 'é', .char ' ', .char '😀',
    .code (c% "00E9"), .code (c% "00e9")] = c% "snow☃ é 😀éé" by decide +kernel] at h
  exact h

/-- `U&'b' UESCAPE 'e'` -/
def unicodeLitWith (b : Str) (e : Char) : Str := unicodeLit b ++ c% " UESCAPE '" ++ [e] ++ c% "'"

theorem uescape_toks (e : Char) (h : e ≠ '\'') : toks (c% " UESCAPE '" ++ [e] ++ c% "'") = [kwT (c% "UESCAPE"), ⟨.str, quoteLit [e]⟩] := by
  have h1 : toks (quoteLit [e] ++ []) = ⟨.str, quoteLit [e]⟩ :: toks [] :=
    toks_string [e] [] (by simpa using fun hx => h hx.symm) (fun hx => nomatch hx)
  rw [List.append_nil] at h1
  have h2 : lexOne 'U' (c% "ESCAPE " ++ quoteLit [e]) = (kwT (c% "UESCAPE"), c% " " ++ quoteLit [e]) := by
    rw [lexOne_id _ (by decide +kernel)]
    rfl
  rw [show c% " UESCAPE '" ++ [e] ++ c% "'" = ' ' :: 'U' :: (c% "ESCAPE " ++ quoteLit [e]) from rfl, toks_ws _ _ (by decide), toks_step h2]
  show kwT (c% "UESCAPE") :: toks (' ' :: quoteLit [e]) = _
  rw [toks_ws _ _ (by decide), h1]
  rfl

/-- **C70 (another escape character).** The same with `UESCAPE 'e'`, for every character `e` besides the quote.  Left out
besides the above: texts with a backslash, see `C70_backslash_false`. -/
theorem C70_uescape_partial (e : Char) (he : e ≠ '\'') (ps : List Piece) (h : ∀ p ∈ ps, p.Ok e) :
    expressionFromSql (unicodeLitWith (pieces e ps) e) = .ok (.lit (some (.str (spelled ps))) (.varchar (some (spelled ps).length))) := by
  have hq := no_quote he ps h
  have hs : escapeText (some ⟨.str, quoteLit [e]⟩) = .ok [e] := by
    show Except.ok (stripC '\'' (['\''] ++ [e] ++ ['\''])) = .ok [e]
    rw [stripC_quoted '\'' [e] (by simpa using fun hx => he hx.symm)]
  rw [C53_expression_complete _ (.str (.unicode (ustrTok (pieces e ps)) (some ⟨.str, quoteLit [e]⟩)))]
  · exact str_conv (unicodeText_pieces hs he ps h)
  · rw [CE_Plain_str]
    exact ⟨rfl, fun _ hx => by cases hx; rfl⟩
  · rw [CE_yield_str]
    show _ = [ustrTok _, kwT (c% "UESCAPE"), ⟨.str, quoteLit [e]⟩]
    rw [← uescape_toks e he, ← toks_ustring _ (c% " UESCAPE '" ++ [e] ++ c% "'") hq (fun hx => by cases hx)]
    congr 1
    simp [unicodeLitWith, unicodeLit]

example : expressionFromSql (c% "U&'snowman #2603' UESCAPE '#'") =
    .ok (.lit (some (.str (c% "snowman ☃"))) (.varchar (some 9))) := by
  have h := C70_uescape_partial '#' (by decide) ((c% "snowman ").map Piece.char ++ [.code (c% "2603")])
    (by
      intro p hp
      rcases List.mem_append.1 hp with hp | hp
      · obtain ⟨c, hc, rfl⟩ := List.mem_map.1 hp
        exact (by decide : ∀ c ∈ c% "snowman ", c ≠ '#' ∧ c ≠ '\\' ∧ c ≠ '\'') c hc
      · rw [List.mem_singleton.1 hp]
        exact ⟨⟨rfl, by decide +kernel, by decide +kernel⟩, by decide⟩)
  rw [show spelled ((c% "snowman ").map Piece.char ++ [.code (c% "2603")]) = c% "snowman ☃" by decide +kernel] at h
  exact h

/-- **C70 (exactly).** With the backslash as escape character, a text without quotes is read exactly if every backslash in
it is followed by four hexadecimal digits that write the number of a character, and then as the text that it stands for. -/
theorem C70_exact (b : Str) (hb : '\'' ∉ b) (e : Expr) : expressionFromSql (unicodeLit b) = .ok e ↔
    ∃ ps : List Piece, (∀ p ∈ ps, p.Fine) ∧ b = pieces '\\' ps ∧ e = .lit (some (.str (spelled ps))) (.varchar (some (spelled ps).length)) := by
  have hq : stripC '\'' ('\'' :: (b ++ ['\''])) = b := stripC_quoted '\'' b hb
  have hu : unicodeText (ustrTok b) none = unescape (b.flatMap (prepC '\\')) := by
    rw [unicodeText_eq (e := '\\') rfl, hq]
  rw [unicode_read b hb]
  constructor
  · intro h
    obtain ⟨v, hv, rfl⟩ := str_conv_inv h
    have hv : unicodeText (ustrTok b) none = .ok v := hv
    rw [hu] at hv
    obtain ⟨ps, h1, h2, rfl⟩ := fine_of_unescape _ b v (Nat.le_refl _) hv
    exact ⟨ps, h1, h2, rfl⟩
  · rintro ⟨ps, h1, rfl, rfl⟩
    refine str_conv (s := .unicode (ustrTok (pieces '\\' ps)) none) ?_
    show unicodeText (ustrTok (pieces '\\' ps)) none = .ok (spelled ps)
    rw [hu]
    exact unescape_fine ps h1

/-- **C70 (same as the plain literal).** If no part stands for a quote, the literal is read as the plain literal with the
same characters is. -/
theorem C70_plain (ps : List Piece) (h : ∀ p ∈ ps, p.Ok '\\') (hq : '\'' ∉ spelled ps) :
    expressionFromSql (unicodeLit (pieces '\\' ps)) = expressionFromSql (c% "'" ++ spelled ps ++ c% "'") := by
  rw [C70_read_partial ps h, C53_expression_complete _ (.str (.basic ⟨.str, quoteLit (spelled ps)⟩))]
  · refine (str_conv ?_).symm
    show Except.ok (stripC '\'' (['\''] ++ spelled ps ++ ['\''])) = _
    rw [stripC_quoted '\'' _ hq]
  · rw [CE_Plain_str]; rfl
  · have := toks_string (spelled ps) [] hq (fun hx => nomatch hx)
    rw [List.append_nil] at this
    exact this

example : expressionFromSql (c% "U&'caf\\00E9'") = expressionFromSql (c% "'café'") := by
  have h := C70_plain [.char 'c', .char 'a', .char 'f', .code (c% "00E9")]
    (by
      intro p hp
      simp only [List.mem_cons, List.not_mem_nil, or_false] at hp
      rcases hp with rfl | rfl | rfl | rfl <;>
        first
        | exact ⟨by decide, by decide, by decide⟩
        | exact ⟨⟨rfl, by decide +kernel, by decide +kernel⟩, by decide⟩)
    (by decide +kernel)
  rw [show spelled [.char 'c', .char 'a', .char 'f', .code (c% "00E9")] = c% "café" by decide +kernel] at h
  exact h

/-! ## Where the claim fails -/

theorem pieces_append (e : Char) (a b : List Piece) : pieces e (a ++ b) = pieces e a ++ pieces e b := List.flatMap_append

/-- After a well-written beginning, a backslash needs four digits. -/
theorem fine_rest : ∀ (ps qs : List Piece) (r : Str), (∀ p ∈ ps, p.Fine) → (∀ p ∈ qs, p.Fine) →
    pieces '\\' ps = pieces '\\' qs ++ '\\' :: r → ∃ d r', FourDigits d ∧ r = d ++ r'
  | ps, [], r, h, _, e => by
    cases ps with
    | nil => exact nomatch e
    | cons p ps =>
      have e : p.text '\\' ++ pieces '\\' ps = '\\' :: r := e
      have hp := h p List.mem_cons_self
      cases p with
      | char c =>
        have e : c :: pieces '\\' ps = '\\' :: r := e
        exact absurd (List.cons.inj e).1 hp
      | code d =>
        have e : '\\' :: (d ++ pieces '\\' ps) = '\\' :: r := e
        exact ⟨d, pieces '\\' ps, hp, (List.cons.inj e).2.symm⟩
  | ps, q :: qs, r, h, hq, e => by
    cases ps with
    | nil =>
      have e : [] = q.text '\\' ++ pieces '\\' qs ++ '\\' :: r := e
      cases q <;> exact nomatch e
    | cons p ps =>
      have e : p.text '\\' ++ pieces '\\' ps = q.text '\\' ++ pieces '\\' qs ++ '\\' :: r := e
      have hp := h p List.mem_cons_self
      have hq' := hq q List.mem_cons_self
      refine fine_rest ps qs r (fun x hx => h x (List.mem_cons_of_mem _ hx)) (fun x hx => hq x (List.mem_cons_of_mem _ hx)) ?_
      rw [List.append_assoc] at e
      cases p with
      | char c =>
        cases q with
        | char d => exact (List.cons.inj (e : c :: _ = d :: _)).2
        | code d => exact absurd (List.cons.inj (e : c :: _ = '\\' :: _)).1 hp
      | code d =>
        cases q with
        | char c => exact absurd (List.cons.inj (e : '\\' :: _ = c :: _)).1.symm hq'
        | code d' =>
          have e : '\\' :: (d ++ pieces '\\' ps) = '\\' :: (d' ++ (pieces '\\' qs ++ '\\' :: r)) := e
          have hl : d.length = d'.length := hp.1.trans hq'.1.symm
          exact (List.append_inj (List.cons.inj e).2 hl).2

theorem not_read (qs : List Piece) (hq : ∀ p ∈ qs, p.Fine) (c : Char) (r : Str) (hc : digit16 c = none)
    (hb : '\'' ∉ pieces '\\' qs ++ '\\' :: c :: r) (e : Expr) :
    expressionFromSql (unicodeLit (pieces '\\' qs ++ '\\' :: c :: r)) ≠ .ok e := by
  intro h
  obtain ⟨ps, h1, h2, _⟩ := (C70_exact _ hb e).1 h
  obtain ⟨d, r', hd, e'⟩ := fine_rest ps qs (c :: r) h1 hq h2.symm
  cases d with
  | nil => exact nomatch hd.1
  | cons x d =>
    have hx := hd.2.1 x List.mem_cons_self
    rw [← (List.cons.inj (e' : c :: r = x :: (d ++ r'))).1, hc] at hx
    exact nomatch hx

/-- **C70 is false of escapes of six digits**: whatever comes before and after, a literal with `\+` is refused. -/
theorem C70_six_digits_fails (qs : List Piece) (hq : ∀ p ∈ qs, p.Fine) (r : Str) (hb : '\'' ∉ pieces '\\' qs ++ '\\' :: '+' :: r)
    (e : Expr) : expressionFromSql (unicodeLit (pieces '\\' qs ++ '\\' :: '+' :: r)) ≠ .ok e :=
  not_read qs hq '+' r (by decide +kernel) hb e

/-- One such text, and what it stands for. -/
theorem C70_six_digits_reached : expressionFromSql (c% "U&'grin \\+01F600'") = .error .valueError ∧
    stringOf (.unicode (ustrTok (c% "grin \\+01F600")) none) = c% "grin 😀" :=
  ⟨expr_of_parserN 60 (by krfl), by decide +kernel⟩

/-- **C70 is false of the doubled escape character.** -/
theorem C70_doubled_fails (qs : List Piece) (hq : ∀ p ∈ qs, p.Fine) (r : Str) (hb : '\'' ∉ pieces '\\' qs ++ '\\' :: '\\' :: r)
    (e : Expr) : expressionFromSql (unicodeLit (pieces '\\' qs ++ '\\' :: '\\' :: r)) ≠ .ok e :=
  not_read qs hq '\\' r (by decide +kernel) hb e

theorem C70_doubled_reached : expressionFromSql (c% "U&'C:\\\\temp'") = .error .valueError ∧
    stringOf (.unicode (ustrTok (c% "C:\\\\temp")) none) = c% "C:\\temp" :=
  ⟨expr_of_parserN 60 (by krfl), by decide +kernel⟩

/-- **C70 is false of backslashes in literals with another escape character**: they are taken for escapes of Python. -/
theorem C70_backslash_false : Misread (c% "U&'C:\\new #0041' UESCAPE '#'") (.node (.text (c% "C:\\new A")) [])
    (.node (.text (c% "C:\new A")) []) := misread 60 (by krfl)

/-- No hexadecimal digits follow the `\\u` that stands before every character. -/
theorem empty_escape (b : Str) : unescape ((replace [] ['\\', 'u'] b).flatMap rawEscape) = .error .valueError := by
  have hc : ∀ r : Str, ¬ ((r.take 4).length = 4 ∧ (r.take 4).all (fun c => (hexVal c).isSome) = true) →
      unescapeGo 0 ('\\' :: 'u' :: r) = .error .valueError := by
    intro r hr
    have : escapeAt ('u' :: r) = .error .valueError := by
      show codeAt 4 r = _
      rw [codeAt, if_neg hr]
    rw [unescapeGo, if_pos rfl, this]
    rfl
  have hu : rawEscape 'u' = ['u'] := by decide +kernel
  have hbs : rawEscape '\\' = ['\\'] := by decide +kernel
  have hx : (hexVal '\\').isSome = false := by decide +kernel
  rw [replace, if_pos rfl]
  cases b with
  | nil =>
    refine hc [] ?_
    simp
  | cons c b =>
    simp only [List.flatMap_cons, List.cons_append, List.nil_append, hu, hbs]
    refine hc _ ?_
    rintro ⟨_, h⟩
    rw [List.all_eq_true] at h
    have hm : ∃ x t, rawEscape c = x :: t ∧ (x = '\\' ∨ t = []) := by
      unfold rawEscape
      split
      · exact ⟨_, _, rfl, .inr rfl⟩
      · split
        · exact ⟨_, _, rfl, .inl rfl⟩
        · exact ⟨_, _, rfl, .inl rfl⟩
    obtain ⟨x, t, hr, hx' | hx'⟩ := hm
    · have := h '\\' (by rw [hr, hx']; simp)
      rw [hx] at this
      cases this
    · have := h '\\' (by rw [hr, hx']; simp)
      rw [hx] at this
      cases this

/-- **C70 (no escape character).** A literal with an empty text after `UESCAPE` is never read, whatever its body. -/
theorem C70_empty_escape_rejected (b : Str) (hb : '\'' ∉ b) :
    expressionFromSql (unicodeLit b ++ c% " UESCAPE ''") = .error .valueError := by
  rw [C53_expression_complete _ (.str (.unicode (ustrTok b) (some ⟨.str, c% "''"⟩)))]
  · have h : unicodeText (ustrTok b) (some ⟨.str, c% "''"⟩) = .error .valueError := by
      have he : escapeText (some ⟨.str, c% "''"⟩) = .ok [] := by decide +kernel
      show (escapeText (some ⟨.str, c% "''"⟩) >>= _) = _
      rw [he]
      dsimp only [Bind.bind, Except.bind]
      rw [empty_escape]
    rw [CE_conv_str]
    exact congrArg (fun x : Except Err Str => x >>= _) h
  · rw [CE_Plain_str]
    exact ⟨rfl, fun _ hx => by cases hx; rfl⟩
  · rw [CE_yield_str]
    show _ = [ustrTok _, kwT (c% "UESCAPE"), ⟨.str, c% "''"⟩]
    rw [show unicodeLit b ++ c% " UESCAPE ''" = 'U' :: '&' :: '\'' :: (b ++ '\'' :: c% " UESCAPE ''") by simp [unicodeLit],
      toks_ustring b _ hb (fun hx => by cases hx)]
    congr 1

example : expressionFromSql (c% "U&'caf\\00e9' UESCAPE ''") = .error .valueError := C70_empty_escape_rejected (c% "caf\\00e9") (by decide)

/-- **C70 (what happens to a backslash).** With another escape character, the backslash is an escape character too, with the
escapes of Python: letters, octal and hexadecimal numbers, a line end that disappears; before any other character it
stays.  This is what the code does, not what C70 asks for: see `C70_backslash_false`. -/
theorem C70_python_escapes (e : Char) (he : e ≠ '\\') (hq : e ≠ '\'') {b v : Str} (hb : '\'' ∉ b) (h : PyText e b v) :
    expressionFromSql (unicodeLitWith b e) = .ok (.lit (some (.str v)) (.varchar (some v.length))) := by
  have hs : escapeText (some ⟨.str, quoteLit [e]⟩) = .ok [e] := by
    show Except.ok (stripC '\'' (['\''] ++ [e] ++ ['\''])) = .ok [e]
    rw [stripC_quoted '\'' [e] (by simpa using fun hx => hq hx.symm)]
  rw [C53_expression_complete _ (.str (.unicode (ustrTok b) (some ⟨.str, quoteLit [e]⟩)))]
  · refine str_conv ?_
    show unicodeText (ustrTok b) _ = _
    rw [unicodeText_eq hs, show stripC '\'' ('\'' :: (b ++ ['\''])) = b from stripC_quoted '\'' b hb]
    exact py_decoded he h
  · rw [CE_Plain_str]
    exact ⟨rfl, fun _ hx => by cases hx; rfl⟩
  · rw [CE_yield_str]
    show _ = [ustrTok _, kwT (c% "UESCAPE"), ⟨.str, quoteLit [e]⟩]
    rw [← uescape_toks e hq, ← toks_ustring _ (c% " UESCAPE '" ++ [e] ++ c% "'") hb (fun hx => by cases hx)]
    congr 1
    simp [unicodeLitWith, unicodeLit]

/-- A letter, an octal and a hexadecimal number, an escape that Python does not know, and one with the escape character. -/
example : expressionFromSql (c% "U&'a\\t\\101b\\x41\\q#2603' UESCAPE '#'") =
    .ok (.lit (some (.str (c% "a\tAbA\\q☃"))) (.varchar (some 8))) :=
  C70_python_escapes '#' (by decide) (by decide) (b := c% "a\\t\\101b\\x41\\q#2603") (by decide)
    (.char (by decide) (by decide) (.letter (d := '\t') (by decide) (by decide) (.octal (o := c% "101") (by decide) (by decide) (by decide) (by decide) (.inl rfl)
      (.char (by decide) (by decide) (.number (d := c% "41") (k := 2) (by decide) (by decide) rfl (by decide +kernel) (by decide +kernel) (by decide)
        (.other (by decide) (by decide) (by decide) (.code (d := c% "2603") ⟨rfl, by decide +kernel, by decide +kernel⟩ (by decide) .nil)))))))

/-- A character that is written by an escape can be a quote; the tree is then printed as a text that is not read. -/
theorem C70_quote_unprintable : ∃ e s, expressionFromSql (c% "U&'it\\0027s'") = .ok e ∧ e = textLit (c% "it's") ∧ e.sql {} = .ok s ∧
    s = c% "'it's'" ∧ expressionFromSql s = .error .syntax :=
  ⟨textLit (c% "it's"), c% "'it's'", expr_of_parserN 60 (by krfl), rfl, rfl, rfl, rest_error (n := 60) rfl⟩

end Treeno.Props
