import Verif.Spec.Literals
import Verif.Props.RoundTripLimits
import Mathlib.Tactic.Ring
import Mathlib.Tactic.FieldSimp
import Mathlib.Tactic.NormNum
/-!
# C47, C48, C51: interval and decimal literals, current-time functions
-/
set_option autoImplicit false
namespace Treeno.Props
open Spec

/-! ## C48: decimals -/

theorem number_eq (s : Str) : number s = digitsVal s := by
  induction s with
  | nil => rfl
  | cons c s ih =>
    have h : digitsVal (c :: s) = digitsValAcc (0 * 10 + (c.toNat - 48)) s := rfl
    rw [h, digitsValAcc_eq, number, ih, Nat.zero_mul, Nat.zero_add]
    rfl

theorem number_append (i f : Str) : number (i ++ f) = number i * 10 ^ f.length + number f := by
  induction i with
  | nil => simp [number]
  | cons c i ih =>
    rw [List.cons_append, number, number, ih, List.length_append, pow_add]
    ring

theorem written_eq (i f : Str) : decimalValue ⟨false, digitsVal (i ++ f), -(f.length : Int)⟩ = written i f := by
  unfold decimalValue written
  rw [← number_eq, number_append, zpow_neg, zpow_natCast]
  push_cast
  have : (10 : ℚ) ^ f.length ≠ 0 := pow_ne_zero _ (by norm_num)
  field_simp

/-- `s` is `i.f`. -/
theorem parse_decimal (m : Bool) (i f : Str) (hi : Digits i) (hf : ∀ c ∈ f, isDigit c = true) :
    expressionFromSql ((if m then c% "-" else []) ++ i ++ '.' :: f) = numLit m ⟨.dec, i ++ '.' :: f⟩ := by
  have hnb : nb (i ++ '.' :: f) := by
    refine nb_of_mem fun c hc => ?_
    rcases List.mem_append.1 hc with h | h
    · exact isDigit_nb (hi.2 c h)
    · rcases List.mem_cons.1 h with rfl | h
      · decide
      · exact isDigit_nb (hf c h)
  have ht : Tx (i ++ '.' :: f) [⟨.dec, i ++ '.' :: f⟩] :=
    ⟨.ofLx (Lx.dec i f hi hf) (.of_nb hnb), Ends.of_nb hnb (by simp), .inl (digits_bg hi _)⟩
  rw [C53_expression_complete _ (.num m ⟨.dec, i ++ '.' :: f⟩)]
  · rfl
  · rw [CE_Plain_num]; exact .inr (.inl rfl)
  · rw [CE_yield_num]
    cases m with
    | false => exact ht.toks
    | true => exact (ht.minus (fun us e => by cases e)).toks

theorem natStr_length_le {s : Str} (hs : ∀ c ∈ s, isDigit c = true) (hne : s ≠ []) : (natStr (digitsVal s)).length ≤ s.length := by
  obtain ⟨h1, h2, h3, h4⟩ := natStr_spec (digitsVal s)
  by_contra hlt
  have hl : 0 < s.length := List.length_pos_iff.2 hne
  have hv := digitsVal_lt s hs
  cases ht : natStr (digitsVal s) with
  | nil => rw [ht] at h1; exact h1 rfl
  | cons c t =>
    rw [ht] at hlt h2 h3 h4
    have hc : isDigit c = true := natStr_digits (digitsVal s) c (by rw [ht]; simp)
    have hc0 : c ≠ '0' := by
      rintro rfl
      have := h4 rfl
      omega
    have hc1 : 1 ≤ c.toNat - '0'.toNat := by
      have h48 : c.toNat ≠ 48 := fun e => hc0 (Char.ext (by apply UInt32.toNat_inj.1; exact e))
      unfold isDigit at hc
      simp at hc
      show 1 ≤ c.toNat - 48
      omega
    rw [← number_eq] at h3
    have h5 : number (c :: t) = (c.toNat - '0'.toNat) * 10 ^ t.length + number t := rfl
    have h6 : 1 * 10 ^ t.length ≤ (c.toNat - '0'.toNat) * 10 ^ t.length := Nat.mul_le_mul_right _ hc1
    have h7 : 10 ^ s.length ≤ 10 ^ t.length := Nat.pow_le_pow_right (by omega) (by simp at hlt; omega)
    omega

theorem decOfPlain_written (i f : Str) (hi : Digits i) (hf : ∀ c ∈ f, isDigit c = true) :
    decOfPlain (i ++ '.' :: f) = some ⟨false, digitsVal (i ++ f), -(f.length : Int)⟩ := by
  obtain ⟨c, s, rfl, hc⟩ := digit_head hi
  exact decOfPlain_digits hc hi.2 hf

/-- **C48.** What a decimal literal is read as has exactly the written value (and the written number of
decimal places), for any number of digits. -/
theorem C48_value (i f : Str) (hi : Digits i) (hf : ∀ c ∈ f, isDigit c = true) (e : Expr)
    (h : expressionFromSql (i ++ c% "." ++ f) = .ok e) :
    ∃ d t, e = .lit (some (.dec d)) t ∧ d.exp = -(f.length : Int) ∧ decimalValue d = written i f := by
  have hp := parse_decimal false i f hi hf
  rw [show i ++ c% "." ++ f = (if false = true then c% "-" else []) ++ i ++ '.' :: f by simp, hp] at h
  unfold numLit at h
  dsimp only at h
  rw [decOfPlain_written i f hi hf] at h
  dsimp only at h
  obtain ⟨t, _, h⟩ := bind_ok h
  obtain ⟨_, _, h⟩ := bind_ok h
  exact ⟨_, t, (Except.ok.inj h).symm, rfl, written_eq i f⟩

/-- **C48 (acceptance).** Literals with at most 38 digits are accepted and typed with exactly their digits.
`DecOk`: at least one decimal place, and not so small that Python writes it with an exponent. -/
theorem C48_accepted (i f : Str) (hi : Digits i) (hf : ∀ c ∈ f, isDigit c = true)
    (hd : DecOk ⟨false, digitsVal (i ++ f), -(f.length : Int)⟩) (h38 : i.length + f.length ≤ 38) :
    ∃ d p, expressionFromSql (i ++ c% "." ++ f) = .ok (.lit (some (.dec d)) (.decimal p f.length)) ∧ decimalValue d = written i f := by
  have hp := parse_decimal false i f hi hf
  have h38' : decDigits ⟨false, digitsVal (i ++ f), -(f.length : Int)⟩ ≤ 38 := by
    unfold decDigits
    dsimp only
    have h1 : (natStr (digitsVal (i ++ f))).length ≤ (i ++ f).length :=
      natStr_length_le (by
        rintro c hc
        rcases List.mem_append.1 hc with h | h
        · exact hi.2 c h
        · exact hf c h) (by simp [hi.1])
    rw [List.length_append] at h1
    have h2 : 0 < i.length := List.length_pos_iff.2 hi.1
    omega
  refine ⟨⟨false, digitsVal (i ++ f), -(f.length : Int)⟩, decDigits ⟨false, digitsVal (i ++ f), -(f.length : Int)⟩, ?_, written_eq i f⟩
  rw [show i ++ c% "." ++ f = (if false = true then c% "-" else []) ++ i ++ '.' :: f by simp, hp]
  unfold numLit
  dsimp only
  rw [decOfPlain_written i f hi hf]
  dsimp only
  have := infer_abs hd h38'
  refine ebind this ?_
  rw [show -(-(f.length : Int)) = f.length by omega]
  rfl

/-- **C48 (negative).** A minus in front negates the value exactly as long as there are at most 28 digits.
Missing: more digits, which are rounded away. -/
theorem C48_negative_partial (i f : Str) (hi : Digits i) (hf : ∀ c ∈ f, isDigit c = true)
    (h28 : i.length + f.length ≤ 28) (e : Expr) (h : expressionFromSql (c% "-" ++ i ++ c% "." ++ f) = .ok e) :
    ∃ d t, e = .lit (some (.dec d)) t ∧ decimalValue d = -written i f := by
  have hp := parse_decimal true i f hi hf
  rw [show c% "-" ++ i ++ c% "." ++ f = (if true = true then c% "-" else []) ++ i ++ '.' :: f by simp, hp] at h
  unfold numLit at h
  dsimp only at h
  rw [decOfPlain_written i f hi hf] at h
  dsimp only at h
  obtain ⟨t, _, h⟩ := bind_ok h
  obtain ⟨_, _, h⟩ := bind_ok h
  refine ⟨_, t, (Except.ok.inj h).symm, ?_⟩
  rw [if_pos rfl, ← written_eq]
  have h1 : (natStr (digitsVal (i ++ f))).length ≤ (i ++ f).length :=
    natStr_length_le (by
      rintro c hc
      rcases List.mem_append.1 hc with h | h
      · exact hi.2 c h
      · exact hf c h) (by simp [hi.1])
  rw [List.length_append] at h1
  have hr : roundCoeff (digitsVal (i ++ f)) (-(f.length : Int)) = (digitsVal (i ++ f), -(f.length : Int)) := by
    unfold roundCoeff
    exact if_pos (by omega)
  unfold Dec.negate decimalValue
  dsimp only
  rw [hr]
  dsimp only
  by_cases h0 : digitsVal (i ++ f) = 0
  · simp [h0]
  · simp [h0]

/-- The rounding: the last of 29 digits is lost. -/
theorem C48_long_negative_false : ∃ d t, expressionFromSql (c% "-1234567890123456789012345678.9") = .ok (.lit (some (.dec d)) t) ∧
    d = ⟨true, 1234567890123456789012345679, 0⟩ ∧ decimalValue d ≠ -written (c% "1234567890123456789012345678") (c% "9") := by
  refine ⟨⟨true, 1234567890123456789012345679, 0⟩, .decimal 29 1, (parse_decimal true (c% "1234567890123456789012345678") (c% "9") ⟨by decide, by decide +kernel⟩ (by decide +kernel)).trans (by krfl), ?_, ?_⟩
  · rfl
  · rw [decimalValue, written, show number (c% "1234567890123456789012345678") = 1234567890123456789012345678 by decide +kernel,
      show number (c% "9") = 9 by decide +kernel]
    norm_num

/-- A literal of more than 38 digits is refused. -/
theorem C48_too_long_refused : expressionFromSql (c% "0.00000123456789012345678901234567890123456789") = .error .assertion :=
  (parse_decimal false (c% "0") (c% "00000123456789012345678901234567890123456789") ⟨by decide, by decide +kernel⟩ (by decide +kernel)).trans (by krfl)

/-- `007.250` -/
theorem C48_reached : DecOk ⟨false, digitsVal (c% "007" ++ c% "250"), -((c% "250").length : Int)⟩ ∧
    expressionFromSql (c% "007" ++ c% "." ++ c% "250") = .ok (.lit (some (.dec ⟨false, 7250, -3⟩)) (.decimal 4 3)) ∧
    written (c% "007") (c% "250") = 29 / 4 := by
  refine ⟨by decide +kernel, (parse_decimal false (c% "007") (c% "250") ⟨by decide, by decide +kernel⟩ (by decide +kernel)).trans (by krfl), ?_⟩
  rw [written, show number (c% "007") = 7 by decide +kernel, show number (c% "250") = 250 by decide +kernel]
  norm_num

/-! ## C47: intervals -/

theorem units_cases (f : Str) (hf : f ∈ units) :
    f = c% "YEAR" ∨ f = c% "MONTH" ∨ f = c% "DAY" ∨ f = c% "HOUR" ∨ f = c% "MINUTE" ∨ f = c% "SECOND" := by
  simpa [units] using hf

def signTok : Sign → List Tok
  | .none => []
  | .plus => [symT (c% "+")]
  | .minus => [symT (c% "-")]

theorem parse_interval (w : Tok) (hw : w.kind = .str) (f : Str) (hf : f ∈ units) (sg : Sign) :
    P (.lv 0) (kwT (c% "INTERVAL") :: signTok sg ++ [w, kwT f]) = some (.interval (signTok sg).head? (.basic w) (kwT f) none, []) := by
  obtain ⟨k, x⟩ := w
  cases hw
  cases sg <;> rcases units_cases f hf with rfl | rfl | rfl | rfl | rfl | rfl <;> exact P_of_parserN (n := 12) (by krfl)

theorem parse_interval_to (w : Tok) (hw : w.kind = .str) (f t : Str) (hf : f ∈ units) (ht : t ∈ units) (sg : Sign) :
    P (.lv 0) (kwT (c% "INTERVAL") :: signTok sg ++ [w, kwT f, kwT (c% "TO"), kwT t]) =
      some (.interval (signTok sg).head? (.basic w) (kwT f) (some (kwT t)), []) := by
  obtain ⟨k, x⟩ := w
  cases hw
  cases sg <;> rcases units_cases f hf with rfl | rfl | rfl | rfl | rfl | rfl <;>
    rcases units_cases t ht with rfl | rfl | rfl | rfl | rfl | rfl <;> exact P_of_parserN (n := 12) (by krfl)

theorem units_kw (f : Str) (hf : f ∈ units) : isKeyword f = true := by
  rcases units_cases f hf with rfl | rfl | rfl | rfl | rfl | rfl <;> decide +kernel

/-- `[TO t]` -/
def toText : Option Str → Str
  | some t => c% " TO " ++ t
  | none => []

/-- `INTERVAL sg 'w' f [TO t]` -/
def intervalText (sg : Sign) (w f : Str) (t : Option Str) : Str :=
  c% "INTERVAL " ++ sg.text ++ c% "'" ++ w ++ c% "' " ++ f ++ toText t

theorem interval_toks (sg : Sign) (w f : Str) (hw : StrOk w) (hf : f ∈ units) (t : Option Str) (ht : IfAny (· ∈ units) t) :
    toks (intervalText sg w f t) = kwT (c% "INTERVAL") :: signTok sg ++ strTok w :: kwT f :: optPart [kwT (c% "TO")] (t.map fun x => [kwT x]) := by
  have h1 : Tx (quoteLit w ++ c% " " ++ f) ([strTok w] ++ ([] ++ [kwT f])) :=
    (Tx.string hw).infix Px.space rfl (Tx.kw (units_kw f hf))
  have h2 : Tx (quoteLit w ++ c% " " ++ f ++ toText t) (strTok w :: kwT f :: optPart [kwT (c% "TO")] (t.map fun x => [kwT x])) := by
    cases t with
    | none => rw [toText, List.append_nil]; exact h1
    | some t =>
      have := h1.infix (m := c% " TO ") (Px.lit _ [kwT (c% "TO")] (by decide +kernel)) rfl (Tx.kw (units_kw t (ht t rfl)))
      rw [List.append_assoc _ (c% " TO ") t] at this
      exact this
  have h3 : Tx (sg.text ++ (quoteLit w ++ c% " " ++ f ++ toText t)) (signTok sg ++ strTok w :: kwT f :: optPart [kwT (c% "TO")] (t.map fun x => [kwT x])) := by
    cases sg with
    | none => exact h2
    | plus => exact Tx.pre (p := c% "+") (Px.lit _ [symT (c% "+")] (by decide +kernel)) rfl h2
    | minus => exact h2.minus (fun us e => by cases e)
  have h4 := (Tx.pre (p := c% "INTERVAL ") (Px.lit _ [kwT (c% "INTERVAL")] (by decide +kernel)) rfl h3).toks
  rw [List.cons_append, ← List.singleton_append, ← h4]
  unfold intervalText quoteLit
  congr 1
  simp only [List.append_assoc, List.cons_append, List.nil_append]

theorem interval_conv (minus : Bool) (inner : Sign) (w : Str) (hw : ∀ c, w.head? = some c → c ≠ '+' ∧ c ≠ '-') :
    intervalValue minus (inner.text ++ w) = (if (minus = true) = (inner = .minus) then [] else c% "-") ++ w := by
  have hp : w.dropWhile (· == '+') = w := by
    cases w with
    | nil => rfl
    | cons c w => rw [List.dropWhile_cons_of_neg]; simpa using (hw c rfl).1
  have hm : w.dropWhile (· == '-') = w := by
    cases w with
    | nil => rfl
    | cons c w => rw [List.dropWhile_cons_of_neg]; simpa using (hw c rfl).2
  have sp : stripPlus w = w := by
    unfold stripPlus
    split
    · exact hp
    · rfl
  have sf : flipText w = '-' :: w := by
    unfold flipText
    split
    · next c w => exact absurd rfl (hw _ rfl).2
    · rfl
  have hplus : stripPlus ('+' :: w) = w := by
    show ('+' :: w).dropWhile (· == '+') = w
    rw [List.dropWhile_cons_of_pos rfl, hp]
  have hminus : flipText ('-' :: w) = w := by
    show ('-' :: w).dropWhile (· == '-') = w
    rw [List.dropWhile_cons_of_pos rfl, hm]
  unfold intervalValue
  cases inner <;> cases minus <;> simp [Sign.text, sp, sf, hplus]
  · rfl
  · exact hminus

/-- **C47 (reading).** An interval literal is read as the interval with the written value and units; the
signs inside and outside of the quotes are multiplied.  Missing: printing (below). -/
theorem C47_reading_partial (outer inner : Sign) (w f : Str) (t : Option Str) (hw : StrOk w) (hs : ∀ c, w.head? = some c → c ≠ '+' ∧ c ≠ '-')
    (hf : f ∈ units) (ht : IfAny (· ∈ units) t) :
    expressionFromSql (intervalText outer (inner.text ++ w) f t) = .ok (.interval (outer.mul inner ++ w) f t) := by
  have hw2 : StrOk (inner.text ++ w) := by
    refine ⟨?_, ?_⟩
    · intro h
      rcases List.mem_append.1 h with h | h
      · cases inner <;> simp [Sign.text] at h
      · exact hw.1 h
    · intro c h
      rcases List.mem_append.1 h with h | h
      · cases inner <;> simp [Sign.text] at h <;> subst h <;> rfl
      · exact hw.2 c h
  have hty : ∀ v, ∃ ty, (Expr.interval v f t).check = .ok ty := by
    intro v
    show ∃ ty, intervalType f = .ok ty
    rcases units_cases f hf with rfl | rfl | rfl | rfl | rfl | rfl <;> exact ⟨_, rfl⟩
  have hmul : intervalValue ((signTok outer).head?.any fun t => t.text == c% "-") (inner.text ++ w) = outer.mul inner ++ w := by
    rw [interval_conv _ _ _ hs]
    cases outer <;> cases inner <;> rfl
  have hp : P (.lv 0) (toks (intervalText outer (inner.text ++ w) f t)) =
      some (.interval (signTok outer).head? (.basic (strTok (inner.text ++ w))) (kwT f) (t.map kwT), []) := by
    rw [interval_toks outer _ f hw2 hf t ht]
    cases t with
    | none => exact parse_interval _ rfl f hf outer
    | some t => exact parse_interval_to _ rfl f t hf (ht t rfl) outer
  rw [expressionFromSql, hp]
  refine ebind (string_tok hw2) ?_
  rw [hmul, show (t.map kwT).map Tok.text = t by cases t <;> rfl]
  obtain ⟨ty, h⟩ := hty (outer.mul inner ++ w)
  exact build_ok h

/-- The signs, as in `INTERVAL -'-3-6' YEAR TO MONTH`. -/
theorem C47_reached : expressionFromSql (c% "INTERVAL -'-3-6' YEAR TO MONTH") = .ok (.interval (c% "3-6") (c% "YEAR") (some (c% "MONTH"))) := by
  have := C47_reading_partial .minus .minus (c% "3-6") (c% "YEAR") (some (c% "MONTH")) ⟨by decide, by decide +kernel⟩ (by rintro c ⟨⟩; decide) (by decide)
    (by rintro a ⟨⟩; decide)
  exact this

/-- A single sign is kept. -/
theorem C47_sign_reached : expressionFromSql (c% "INTERVAL -'15' DAY") = .ok (.interval (c% "-15") (c% "DAY") none) := by
  have := C47_reading_partial .minus .none (c% "15") (c% "DAY") none ⟨by decide, by decide +kernel⟩ (by rintro c ⟨⟩; decide) (by decide) (by rintro a ⟨⟩)
  exact this

/-- **C47 (printing) is false.** Every interval is printed without the quotes. -/
theorem C47_printed_without_quotes (w f : Str) (t : Option Str) (o : Opts) :
    (Expr.interval w f t).sql o = .ok (c% "INTERVAL " ++ w ++ c% " " ++ f ++ toText (truthy t)) := by
  show Except.ok _ = _
  cases t with
  | none => rfl
  | some t => cases t <;> rfl

theorem interval_rest (neg : Bool) (w : Tok) (hw : w.kind = .int) (f : Str) (hf : f ∈ units) (r : List Tok) (hr : r = [] ∨ ∃ t ∈ units, r = [kwT (c% "TO"), kwT t]) :
    ∃ c, P (.lv 0) (kwT (c% "INTERVAL") :: (if neg then [symT (c% "-")] else []) ++ w :: kwT f :: r) = some (c, (if neg then [] else [w]) ++ kwT f :: r) := by
  obtain ⟨k, x⟩ := w
  cases hw
  cases neg <;> rcases units_cases f hf with rfl | rfl | rfl | rfl | rfl | rfl <;> rcases hr with rfl | ⟨t, -, rfl⟩ <;>
    exact ⟨_, P_of_parserN (n := 12) rfl⟩

/-- **C47 (printing) is false**: no interval with a whole number of units can be read back. -/
theorem C47_unreadable (neg : Bool) (w f : Str) (t : Option Str) (o : Opts) (hw : Digits w) (hf : f ∈ units) (ht : IfAny (· ∈ units) t) :
    ∃ s, (Expr.interval ((if neg then c% "-" else []) ++ w) f t).sql o = .ok s ∧ expressionFromSql s = .error .syntax := by
  refine ⟨_, C47_printed_without_quotes _ f t o, ?_⟩
  have htt : truthy t = t := by
    cases t with
    | none => rfl
    | some t => rcases units_cases t (ht t rfl) with rfl | rfl | rfl | rfl | rfl | rfl <;> rfl
  have hnb : nb w := nb_of_mem fun c hc => isDigit_nb (hw.2 c hc)
  have hdig : Tx w [⟨.int, w⟩] :=
    ⟨.ofLx (Lx.int w hw) (.of_nb hnb), Ends.of_nb hnb hw.1, .inl (by have := digits_bg hw []; rwa [List.append_nil] at this)⟩
  have h1 : Tx (w ++ c% " " ++ f) ([⟨.int, w⟩] ++ ([] ++ [kwT f])) := hdig.infix Px.space rfl (Tx.kw (units_kw f hf))
  have h2 : Tx (w ++ c% " " ++ f ++ toText t) (⟨.int, w⟩ :: kwT f :: optPart [kwT (c% "TO")] (t.map fun x => [kwT x])) := by
    cases t with
    | none => rw [toText, List.append_nil]; exact h1
    | some t =>
      have := h1.infix (m := c% " TO ") (Px.lit _ [kwT (c% "TO")] (by decide +kernel)) rfl (Tx.kw (units_kw t (ht t rfl)))
      rw [List.append_assoc _ (c% " TO ") t] at this
      exact this
  have h3 : Tx ((if neg then c% "-" else []) ++ (w ++ c% " " ++ f ++ toText t))
      ((if neg then [symT (c% "-")] else []) ++ ⟨.int, w⟩ :: kwT f :: optPart [kwT (c% "TO")] (t.map fun x => [kwT x])) := by
    cases neg with
    | false => exact h2
    | true => exact h2.minus (fun us e => by cases e)
  have h4 := (Tx.pre (p := c% "INTERVAL ") (Px.lit _ [kwT (c% "INTERVAL")] (by decide +kernel)) rfl h3).toks
  obtain ⟨c, hp⟩ := interval_rest neg ⟨.int, w⟩ rfl f hf (optPart [kwT (c% "TO")] (t.map fun x => [kwT x])) (by
    cases t with
    | none => exact .inl rfl
    | some t => exact .inr ⟨t, ht t rfl, rfl⟩)
  rw [htt]
  have e : c% "INTERVAL " ++ ((if neg then c% "-" else []) ++ w) ++ c% " " ++ f ++ toText t =
      c% "INTERVAL " ++ ((if neg then c% "-" else []) ++ (w ++ c% " " ++ f ++ toText t)) := by
    simp only [List.append_assoc]
  rw [expressionFromSql, e, h4]
  rw [show [kwT (c% "INTERVAL")] ++ ((if neg then [symT (c% "-")] else []) ++ ⟨.int, w⟩ :: kwT f :: optPart [kwT (c% "TO")] (t.map fun x => [kwT x])) =
    kwT (c% "INTERVAL") :: (if neg then [symT (c% "-")] else []) ++ ⟨.int, w⟩ :: kwT f :: optPart [kwT (c% "TO")] (t.map fun x => [kwT x]) from rfl, hp]
  cases neg <;> rfl

/-! ## C51: current-time functions -/

/-- **C51 (printing).** -/
theorem C51_text (f : CurFn) (p : Int) (o : Opts) :
    (Expr.curTime f p).sql o = .ok (if p = 3 then f.name else f.name ++ c% "(" ++ intStr p ++ c% ")") := by
  show Except.ok (curTimeText f p) = _
  unfold curTimeText
  by_cases h : p = 3
  · simp [h]
  · simp [h, parenS]

/-- **C51 (types).** -/
theorem C51_type (f : CurFn) (p : Int) (t : Ty) (h : (Expr.curTime f p).check = .ok t) :
    0 ≤ p ∧ p ≤ 12 ∧ (t = .time (some p) false ∨ t = .timestamp (some p) false) := by
  have e1 : curTimeType f p = (match f with
    | .currentTime | .localTime => if 0 ≤ p ∧ p ≤ 12 then .ok (.time (some p) false) else .error .assertion
    | .currentTimestamp | .localTimestamp => if 0 ≤ p ∧ p ≤ 12 then .ok (.timestamp (some p) false) else .error .assertion) := by
    cases f <;> rfl
  replace h : curTimeType f p = .ok t := h
  rw [e1] at h
  cases f <;> dsimp only at h <;> split at h <;> first
    | (rename_i hp; cases h; exact ⟨hp.1, hp.2, .inl rfl⟩)
    | (rename_i hp; cases h; exact ⟨hp.1, hp.2, .inr rfl⟩)
    | cases h

/-- **C51.** The text of every function that can be constructed is read as the function with the same
precision, so with the same type. -/
theorem C51_read_back (f : CurFn) (p : Int) (o : Opts) (s : Str) (t : Ty) (hc : (Expr.curTime f p).check = .ok t)
    (hs : (Expr.curTime f p).sql o = .ok s) : expressionFromSql s = .ok (.curTime f p) :=
  C13_exact_partial (.curTime f p) o s t (by rw [Expr_Tidy_curTime]; exact (C51_type f p t hc).1)
    (by rw [Expr_Fits_curTime]; trivial) rfl hc hs

theorem C51_reached : (Expr.curTime .localTimestamp 6).check = .ok (.timestamp (some 6) false) ∧
    (Expr.curTime .localTimestamp 6).sql {} = .ok (c% "LOCALTIMESTAMP(6)") ∧ (Expr.curTime .currentTime 3).sql {} = .ok (c% "CURRENT_TIME") :=
  ⟨rfl, rfl, rfl⟩

end Treeno.Props
