import Verif.Lemmas.DoubleLex
import Verif.Props.LiteralProps
import Verif.Props.CallProps
/-!
# Double literals (C71)
-/
set_option autoImplicit false
namespace Treeno.Props
open Treeno Spec

/-! ## Helpers -/

/-- An optional minus sign. -/
def signText (m : Bool) : Str := if m then c% "-" else []

theorem double_read {t : Str} {v : ℚ} (h : DoubleText t v) (m : Bool) :
    expressionFromSql (signText m ++ t) = .ok (.lit (some (.float (signText m ++ (floatOf t).str))) (.simple .double)) := by
  rw [C53_expression_complete _ (.num m ⟨.dbl, t⟩)]
  · rfl
  · rw [CE_Plain_num]; exact .inr (.inr rfl)
  · rw [CE_yield_num]
    cases m with
    | false => exact (Tx.dbl h).toks
    | true => exact ((Tx.dbl h).minus (fun us e => by cases e)).toks

theorem error_of_toks {s : Str} {ts : List Tok} {x : Err} (n : Nat) (ht : toks s = ts)
    (h : (parserN n (.lv 0) ts).map (fun p => (p.1.conv, p.2)) = some (.error x, [])) : expressionFromSql s = .error x :=
  expr_of_parserN n (by rw [ht]; exact h)

theorem rest_of_toks {s : Str} {ts : List Tok} {n : Nat} {c : CE} {t : Tok} {r : List Tok} (ht : toks s = ts)
    (h : parserN n (.lv 0) ts = some (c, t :: r)) : expressionFromSql s = .error .syntax :=
  rest_error (by rw [ht]; exact h)

/-- A sign before a digit. -/
theorem toks_sign {s c : Char} {r : Str} (hs : s = '+' ∨ s = '-') (hc : isDigit c = true) :
    toks (s :: c :: r) = ⟨.sym, [s]⟩ :: toks (c :: r) := by
  have hne : ∀ d : Char, isDigit d = false → c ≠ d := by
    rintro d h rfl
    rw [hc] at h; exact nomatch h
  have hl : lexOne s (c :: r) = (⟨.sym, [s]⟩, c :: r) := by
    rcases hs with rfl | rfl
    · show lexSym '+' (c :: r) = _
      unfold lexSym
      dsimp only
      rw [if_neg]
      · rfl
      · intro h
        have h : ['+', c] ∈ twoSyms := by simpa using h
        simp [twoSyms] at h
    · have e : lexOne '-' (c :: r) = lexSym '-' (c :: r) := by
        show (match c :: r with
          | '-' :: r => ((⟨.comment, '-' :: '-' :: (lineComment r).1⟩ : Tok), (lineComment r).2)
          | _ => lexSym '-' (c :: r)) = _
        split
        · rename_i h; injection h with h _; exact absurd h (hne '-' (by decide))
        · rfl
      rw [e]
      unfold lexSym
      dsimp only
      rw [if_neg]
      · rfl
      · intro h
        have h : ['-', c] ∈ twoSyms := by simpa using h
        simp [twoSyms] at h
        rcases h with h | h
        · exact hne '>' (by decide) h
        · exact hne '}' (by decide) h
  rw [toks_step hl]; rfl

theorem toks_digits {xs : Str} (h : Digits xs) : toks xs = [⟨.int, xs⟩] := (Lx.int xs h).toks

/-- `1e+16` is an identifier, a sign and a number. -/
theorem toks_power_whole {c s : Char} {xs : Str} (hc : isDigit c = true) (hs : s = '+' ∨ s = '-') (hx : Digits xs) :
    toks (c :: 'e' :: s :: xs) = [⟨.digitIdent, [c, 'e']⟩, ⟨.sym, [s]⟩, ⟨.int, xs⟩] := by
  have hsd : isIdChar s = false := by rcases hs with rfl | rfl <;> decide
  have hci := isDigit_isIdChar hc
  have hl : lexOne c ('e' :: s :: xs) = (⟨.digitIdent, [c, 'e']⟩, s :: xs) := by
    rw [lexOne_digit _ hc, lexNumber]
    have h1 : (c :: 'e' :: s :: xs).takeWhile isIdChar = [c, 'e'] := by
      rw [List.takeWhile_cons, if_pos hci, List.takeWhile_cons, if_pos (by decide), List.takeWhile_cons, if_neg (by rw [hsd]; decide)]
    have h2 : (c :: 'e' :: s :: xs).dropWhile isIdChar = s :: xs := by
      rw [List.dropWhile_cons, if_pos hci, List.dropWhile_cons, if_pos (by decide), List.dropWhile_cons, if_neg (by rw [hsd]; decide)]
    have h3 : (lexNum (c :: 'e' :: s :: xs)).1.text = [c] := by
      have hm : mantissa (c :: 'e' :: s :: xs) = (.int, [c], 'e' :: s :: xs) := by
        unfold mantissa
        obtain ⟨a, b⟩ := digit_run [c] 'e' (s :: xs) (by simpa using hc) (by decide)
        rw [List.singleton_append] at a b
        rw [a, b]
        rfl
      unfold lexNum
      rw [hm]
      rfl
    rw [h1, h2, h3]
    rfl
  obtain ⟨d, ds, rfl, hd⟩ := digit_head hx
  rw [toks_step hl, toks_sign hs hd, toks_digits hx]
  rfl

/-- `1.5e+16` is a decimal, an identifier, a sign and a number. -/
theorem toks_power_point {c s : Char} {f xs : Str} (hc : isDigit c = true) (hs : s = '+' ∨ s = '-') (hf : Digits f) (hx : Digits xs) :
    toks (c :: '.' :: f ++ 'e' :: s :: xs) = [⟨.dec, c :: '.' :: f⟩, ⟨.ident, c% "e"⟩, ⟨.sym, [s]⟩, ⟨.int, xs⟩] := by
  have hsd : isIdChar s = false := by rcases hs with rfl | rfl <;> decide
  have hci := isDigit_isIdChar hc
  have hl : lexOne c ('.' :: f ++ 'e' :: s :: xs) = (⟨.dec, c :: '.' :: f⟩, 'e' :: s :: xs) := by
    rw [lexOne_digit _ hc, lexNumber]
    have h1 : (c :: ('.' :: f ++ 'e' :: s :: xs)).takeWhile isIdChar = [c] := by
      rw [List.takeWhile_cons, if_pos hci, List.cons_append, List.takeWhile_cons, if_neg (by decide)]
    have h3 : lexNum (c :: ('.' :: f ++ 'e' :: s :: xs)) = (⟨.dec, c :: '.' :: f⟩, 'e' :: s :: xs) := by
      have hm : mantissa (c :: ('.' :: f ++ 'e' :: s :: xs)) = (.dec, c :: '.' :: f, 'e' :: s :: xs) := by
        unfold mantissa
        obtain ⟨a, b⟩ := digit_run [c] '.' (f ++ 'e' :: s :: xs) (by simpa using hc) (by decide)
        obtain ⟨a2, b2⟩ := digit_run f 'e' (s :: xs) hf.2 (by decide)
        rw [List.singleton_append] at a b
        rw [List.cons_append, a, b]
        show (Kind.dec, [c] ++ '.' :: (f ++ 'e' :: s :: xs).takeWhile isDigit, (f ++ 'e' :: s :: xs).dropWhile isDigit) = _
        rw [a2, b2]
        rfl
      unfold lexNum
      rw [hm]
      rfl
    rw [h1, h3]
    exact if_neg (by simp)
  have hw : lexOne 'e' (s :: xs) = (⟨.ident, c% "e"⟩, s :: xs) := by
    show lexWord ('e' :: s :: xs) = _
    show wordTok ('e' :: s :: xs) = _
    unfold wordTok
    have h1 : ('e' :: s :: xs).takeWhile isIdChar = ['e'] := by
      rw [List.takeWhile_cons, if_pos (by decide), List.takeWhile_cons, if_neg (by rw [hsd]; decide)]
    have h2 : ('e' :: s :: xs).dropWhile isIdChar = s :: xs := by
      rw [List.dropWhile_cons, if_pos (by decide), List.dropWhile_cons, if_neg (by rw [hsd]; decide)]
    rw [h1, h2, if_neg (by decide +kernel)]
  obtain ⟨d, ds, rfl, hd⟩ := digit_head hx
  show toks (c :: ('.' :: f ++ 'e' :: s :: d :: ds)) = _
  rw [toks_step hl, toks_step hw, toks_sign hs hd, toks_digits hx]
  rfl

/-- Nothing with an exponent in lower case is read. -/
theorem power_refused {r : Str} {w : ℚ} (h : PowerText r w) (m : Bool) (e : Expr) : expressionFromSql (signText m ++ r) ≠ .ok e := by
  cases h with
  | whole c s xs hc _ hs hx =>
    have ht := toks_power_whole hc hs hx.1
    cases m with
    | false =>
      rcases hs with rfl | rfl
      · rw [show signText false ++ (c :: 'e' :: '+' :: xs) = c :: 'e' :: '+' :: xs from rfl,
          error_of_toks (x := .notImplemented) 40 ht (by krfl)]
        exact nofun
      · rw [show signText false ++ (c :: 'e' :: '-' :: xs) = c :: 'e' :: '-' :: xs from rfl,
          error_of_toks (x := .notImplemented) 40 ht (by krfl)]
        exact nofun
    | true =>
      have ht' := (toks_sign (s := '-') (.inr rfl) hc (r := 'e' :: s :: xs)).trans (congrArg _ ht)
      rcases hs with rfl | rfl
      · rw [show signText true ++ (c :: 'e' :: '+' :: xs) = '-' :: c :: 'e' :: '+' :: xs from rfl,
          error_of_toks (x := .notImplemented) 40 ht' (by krfl)]
        exact nofun
      · rw [show signText true ++ (c :: 'e' :: '-' :: xs) = '-' :: c :: 'e' :: '-' :: xs from rfl,
          error_of_toks (x := .notImplemented) 40 ht' (by krfl)]
        exact nofun
  | point c s f xs hc _ hs hf _ hx =>
    have ht := toks_power_point hc hs hf hx.1
    cases m with
    | false =>
      rw [show signText false ++ (c :: '.' :: f ++ 'e' :: s :: xs) = c :: '.' :: f ++ 'e' :: s :: xs from rfl,
        rest_of_toks (n := 40) ht rfl]
      exact nofun
    | true =>
      have ht' := (toks_sign (s := '-') (.inr rfl) hc (r := '.' :: f ++ 'e' :: s :: xs)).trans (congrArg _ ht)
      rw [show signText true ++ (c :: '.' :: f ++ 'e' :: s :: xs) = '-' :: c :: ('.' :: f ++ 'e' :: s :: xs) from rfl,
        rest_of_toks (n := 40) ht' rfl]
      exact nofun

theorem negated_value {i f : Str} (hi : Digits i) (hf : ∀ c ∈ f, isDigit c = true) (h28 : i.length + f.length ≤ 28) :
    decimalValue (Dec.negate ⟨false, digitsVal (i ++ f), -(f.length : Int)⟩) = -written i f := by
  rw [← written_eq]
  have h1 : (natStr (digitsVal (i ++ f))).length ≤ (i ++ f).length :=
    natStr_length_le (by
      rintro c hc
      rcases List.mem_append.1 hc with h | h
      · exact hi.2 c h
      · exact hf c h) (by simp [hi.1])
  rw [List.length_append] at h1
  have hr : roundCoeff (digitsVal (i ++ f)) (-(f.length : Int)) = (digitsVal (i ++ f), -(f.length : Int)) := by
    unfold roundCoeff
    exact if_pos (by omega)
  unfold Dec.negate decimalValue
  dsimp only
  rw [hr]
  dsimp only
  by_cases h0 : digitsVal (i ++ f) = 0
  · simp [h0]
  · simp [h0]

/-- A text with a point is read as a decimal. -/
theorem point_decimal {r : Str} {w : ℚ} (h : PointText r w) (hw : 1 / 10 ^ 4 ≤ w) (m : Bool) :
    ∃ d t, expressionFromSql (signText m ++ r) = .ok (.lit (some (.dec d)) t) ∧ decimalValue d = if m then -w else w := by
  cases h with
  | mk i f hi hf h22 =>
    have hlen : 0 < f.length := List.length_pos_iff.2 hf.1.1
    have hd : DecOk ⟨false, digitsVal (i ++ f), -(f.length : Int)⟩ := by
      refine ⟨by show -(f.length : Int) < 0; omega, ?_⟩
      show -(f.length : Int) + (natStr (digitsVal (i ++ f))).length > -6
      rw [written_number, number_val] at hw
      have h1 := (natStr_lt (digitsVal (i ++ f)))
      by_contra hc
      have h2 : (digitsVal (i ++ f) : ℚ) < 10 ^ ((f.length : ℤ) - 6) := by
        calc (digitsVal (i ++ f) : ℚ) < 10 ^ ((natStr (digitsVal (i ++ f))).length : ℤ) := by
              rw [zpow_natCast]; exact_mod_cast h1
          _ ≤ 10 ^ ((f.length : ℤ) - 6) := zpow_le_zpow_right₀ (by norm_num) (by omega)
      have h3 := mul_lt_mul_of_pos_right h2 (ten_pos (-(f.length : ℤ)))
      rw [← ten_add, show (f.length : ℤ) - 6 + -(f.length : ℤ) = -6 by ring] at h3
      have := lt_of_le_of_lt hw h3
      norm_num at this
    have h38' : decDigits ⟨false, digitsVal (i ++ f), -(f.length : Int)⟩ ≤ 38 := by
      unfold decDigits
      dsimp only
      have h1 : (natStr (digitsVal (i ++ f))).length ≤ (i ++ f).length :=
        natStr_length_le (by
          rintro c hc
          rcases List.mem_append.1 hc with h | h
          · exact hi.1.2 c h
          · exact hf.1.2 c h) (by simp [hi.1.1])
      rw [List.length_append] at h1
      have h2 : 0 < i.length := List.length_pos_iff.2 hi.1.1
      omega
    have hp := parse_decimal m i f hi.1 hf.1.2
    rw [List.append_assoc] at hp
    refine ⟨if m then Dec.negate ⟨false, digitsVal (i ++ f), -(f.length : Int)⟩ else ⟨false, digitsVal (i ++ f), -(f.length : Int)⟩,
      .decimal (decDigits ⟨false, digitsVal (i ++ f), -(f.length : Int)⟩) f.length, ?_, ?_⟩
    · refine Eq.trans hp ?_
      unfold numLit
      dsimp only
      rw [decOfPlain_written i f hi.1 hf.1.2]
      dsimp only
      have hi := infer_abs hd h38'
      refine ebind hi ?_
      rw [show -(-(f.length : Int)) = f.length by omega]
      rfl
    · cases m with
      | false =>
        simp only [Bool.false_eq_true, if_false]
        exact written_eq i f
      | true =>
        simp only [if_true]
        exact negated_value hi.1 hf.1.2 (by omega)

/-- `0.0` is read as a decimal. -/
theorem zero_decimal (m : Bool) :
    ∃ d t, expressionFromSql (signText m ++ c% "0.0") = .ok (.lit (some (.dec d)) t) ∧ decimalValue d = 0 := by
  have hp := parse_decimal m (c% "0") (c% "0") ⟨by decide, by decide⟩ (by decide)
  cases m with
  | false => exact ⟨⟨false, 0, -1⟩, .decimal 2 1, hp.trans (by krfl), by simp [decimalValue]⟩
  | true => exact ⟨⟨false, 0, -1⟩, .decimal 2 1, hp.trans (by krfl), by simp [decimalValue]⟩

/-- Two different doubles are not rounded to the same. -/
theorem two_doubles {a b y z z' : ℚ} (ha : Nearest a y) (hb : Nearest b y) (hz : Binary64 z) (hz' : Binary64 z') (hne : z ≠ z')
    (h1 : a ≤ z) (h2 : z ≤ b) (h3 : a ≤ z') (h4 : z' ≤ b) : False := by
  have key : ∀ u, Binary64 u → a ≤ u → u ≤ b → y = u := by
    intro u hu l r
    have hn : Nearest u y := by
      rcases le_total u y with h | h
      · exact nearer_left ha l h
      · exact nearer_right hb h r
    have := hn.near u hu
    rw [sub_self, abs_zero] at this
    linarith [abs_nonpos_iff.1 this]
  exact hne ((key z hz h1 h2).symm.trans (key z' hz' h3 h4))

theorem at_double {u y : ℚ} (h : Nearest u y) (hu : Binary64 u) : y = u := by
  have := h.near u hu
  rw [sub_self, abs_zero] at this
  linarith [abs_nonpos_iff.1 this]

theorem between {a b u y : ℚ} (ha : Nearest a y) (hb : Nearest b y) (l : a ≤ u) (r : u ≤ b) : Nearest u y := by
  rcases le_total u y with h | h
  · exact nearer_left ha l h
  · exact nearer_right hb h r

theorem ten16 : Binary64 (10 ^ 16) := ⟨5000000000000000, 1, by norm_num, by norm_num, by norm_num, by norm_num⟩

/-- `10 ^ 16 - 1` is rounded up. -/
theorem below_ten16 : Nearest (10 ^ 16 - 1) (10 ^ 16) := by
  have h := (toF64_iff (m := 5000000000000000) (e := 1) ⟨by norm_num, .inl (by norm_num), by norm_num⟩ (by norm_num)
    (n := 9999999999999999) (d := 1) (by norm_num)).1 (by decide +kernel)
  have e1 : (((9999999999999999 : ℕ) : ℚ) / ((1 : ℕ) : ℚ)) = 10 ^ 16 - 1 := by norm_num
  have e2 : ((5000000000000000 : ℕ) : ℚ) * 2 ^ (1 : ℤ) = 10 ^ 16 := by norm_num
  rw [e1, e2] at h
  exact h

theorem one_digit (x : ℤ) : HasDigits 1 (10 ^ x) := ⟨1, x, by norm_num, by simp⟩

theorem shortest_self {w y : ℚ} (h : Shortest w y) {x : ℤ} (hy : y = 10 ^ x) : w = y := by
  have hyy : Nearest y y := by
    have hr := h.rounds
    rcases le_total w y with hle | hle
    · exact nearer_left hr hle (le_refl _)
    · exact nearer_right hr (le_refl _) hle
  have := h.nearest 1 y (hy ▸ one_digit x) hyy (fun k u hk hu hn => by
    obtain ⟨c, x', hc, rfl⟩ := hu
    have hk : k = 0 := by omega
    subst hk
    have hc : c = 0 := by simpa using hc
    subst hc
    have := at_double hn ⟨0, 0, by norm_num, by norm_num, by norm_num, by norm_num⟩
    rw [hy, Nat.cast_zero, zero_mul] at this
    exact absurd this (ten_pos x).ne')
  rw [sub_self, abs_zero] at this
  linarith [abs_nonpos_iff.1 this]

/-- Which numbers are shown as `1e+16` and larger. -/
theorem large_iff {v w y : ℚ} (hv : Nearest v y) (hw : Shortest w y) : 10 ^ 16 ≤ w ↔ 10 ^ 16 - 1 ≤ v := by
  constructor
  · intro h
    by_contra hc
    have hc := lt_of_not_ge hc
    have hy := at_double (between hv hw.rounds (u := 10 ^ 16) (by linarith) h) ten16
    have := hv.near (10 ^ 16 - 2) ⟨4999999999999999, 1, by norm_num, by norm_num, by norm_num, by norm_num⟩
    rw [hy, abs_of_nonpos (by linarith)] at this
    rcases abs_cases (v - (10 ^ 16 - 2)) with ⟨h1, _⟩ | ⟨h1, _⟩ <;> rw [h1] at this <;> linarith
  · intro h
    by_contra hc
    have hc := lt_of_not_ge hc
    have hge : 10 ^ 16 ≤ y := by
      rcases le_total v (10 ^ 16) with hle | hle
      · exact le_of_eq (rounding_unique (nearer_left below_ten16 h hle) hv)
      · by_contra hlt
        have hlt := lt_of_not_ge hlt
        have := hv.near (10 ^ 16) ten16
        rw [abs_of_nonneg (by linarith), abs_of_nonneg (by linarith)] at this
        linarith
    have hy := at_double (nearer_left hw.rounds hc.le hge) ten16
    have := shortest_self hw (x := 16) (by rw [hy]; norm_num)
    rw [this, hy] at hc
    exact lt_irrefl _ hc

/-- Numbers from `0.0001` on are not shown as smaller ones. -/
theorem small_point {v w y : ℚ} (hv : Nearest v y) (hw : Shortest w y) (h : 1 / 10 ^ 4 ≤ v) : 1 / 10 ^ 4 ≤ w := by
  by_contra hc
  have hc := lt_of_not_ge hc
  have e4 : (1 : ℚ) / 10 ^ 4 = 10 ^ (-4 : ℤ) := by norm_num
  have hn := between hw.rounds hv (u := 1 / 10 ^ 4) hc.le h
  obtain ⟨c, x, hc1, hcw⟩ := hw.fewest 1 (1 / 10 ^ 4) (e4 ▸ one_digit (-4)) hn
  have hle : w ≤ 9 / 10 ^ 5 := by
    have hc9 : (c : ℚ) ≤ 9 := by
      have : c ≤ 9 := by omega
      exact_mod_cast this
    rcases le_or_gt x (-5) with hx | hx
    · calc w = c * 10 ^ x := hcw
        _ ≤ 9 * 10 ^ (-5 : ℤ) := mul_le_mul hc9 (zpow_le_zpow_right₀ (by norm_num) hx) (ten_pos x).le (by norm_num)
        _ = 9 / 10 ^ 5 := by norm_num
    · have h0 : c = 0 := by
        by_contra hne
        have : (1 : ℚ) ≤ c := by
          have : 1 ≤ c := by omega
          exact_mod_cast this
        have h4 : (10 : ℚ) ^ (-4 : ℤ) ≤ 10 ^ x := zpow_le_zpow_right₀ (by norm_num) (by omega)
        have : (1 : ℚ) * 10 ^ (-4 : ℤ) ≤ c * 10 ^ x := mul_le_mul this h4 (ten_pos _).le (by linarith)
        rw [← hcw] at this
        rw [e4] at hc
        linarith
      rw [h0] at hcw
      rw [hcw]
      norm_num
  exact two_doubles hw.rounds hv (z := 100000 * 2 ^ (-30 : ℤ)) (z' := 100001 * 2 ^ (-30 : ℤ))
    ⟨100000, -30, by norm_num, by norm_num, by norm_num, by norm_num⟩ ⟨100001, -30, by norm_num, by norm_num, by norm_num, by norm_num⟩
    (by norm_num) (le_trans hle (by norm_num)) (le_trans (by norm_num) h) (le_trans hle (by norm_num)) (le_trans (by norm_num) h)

/-- Numbers below `0.0001`, but not too near to it or to zero, are shown as such. -/
theorem small_power {v w y : ℚ} (hv : Nearest v y) (hw : Shortest w y) (h0 : 2 ^ (-1074 : ℤ) ≤ v) (h : v ≤ 99 / 10 ^ 6) :
    w ≠ 0 ∧ w < 1 / 10 ^ 4 := by
  constructor
  · rintro rfl
    have hy := at_double hw.rounds ⟨0, 0, by norm_num, by norm_num, by norm_num, by norm_num⟩
    have := hv.near (2 ^ (-1074 : ℤ)) ⟨1, -1074, by norm_num, by norm_num, by norm_num, by rw [Nat.cast_one, one_mul]⟩
    have hp := two_pos (-1074)
    rw [hy, sub_zero, abs_of_nonneg (by linarith), abs_of_nonneg (by linarith)] at this
    linarith
  · by_contra hc
    have hc := le_of_not_gt hc
    exact two_doubles hv hw.rounds (z := 107000 * 2 ^ (-30 : ℤ)) (z' := 107001 * 2 ^ (-30 : ℤ))
      ⟨107000, -30, by norm_num, by norm_num, by norm_num, by norm_num⟩ ⟨107001, -30, by norm_num, by norm_num, by norm_num, by norm_num⟩
      (by norm_num) (le_trans h (by norm_num)) (le_trans (by norm_num) hc) (le_trans h (by norm_num)) (le_trans (by norm_num) hc)

/-! ## Reading -/

/-- C71. The rounding of a number is unique: `C71_value_partial` says which number is held. -/
theorem C71_unique (v y z : ℚ) (hy : Nearest v y) (hz : Nearest v z) : y = z := rounding_unique hy hz

/-- C71. A double literal is read as a constant of type DOUBLE.  Its value `y` is the binary64 number nearest to the number
that is written, ties to even.  The text of the constant, which is also what is printed, is the shortest one that is read as
`y` by Python, and the nearest of those.  Partial: that the printed text is read back is false (C71_never). -/
theorem C71_value_partial (t : Str) (v : ℚ) (h : DoubleText t v) (hv : v < tooLarge) (m : Bool) (o : Opts) :
    ∃ (r : Str) (y w : ℚ), expressionFromSql (signText m ++ t) = .ok (.lit (some (.float (signText m ++ r))) (.simple .double)) ∧
      Expr.sql o (.lit (some (.float (signText m ++ r))) (.simple .double)) = .ok (signText m ++ r) ∧
      Nearest v y ∧ FloatText r w ∧ Shortest w y := by
  have hr := double_read h m
  cases hf : floatOf t with
  | inf => exact absurd ((floatOf_inf h).1 hf) (not_le.2 hv)
  | fin k e =>
    obtain ⟨hc, he, hn⟩ := floatOf_fin h hf
    obtain ⟨w, h1, h2⟩ := str_text hc he
    rw [hf] at hr
    exact ⟨_, _, w, hr, rfl, hn, h1, h2⟩

/-- C71. Larger numbers are read as infinity. -/
theorem C71_overflow (t : Str) (v : ℚ) (h : DoubleText t v) (hv : tooLarge ≤ v) (m : Bool) :
    expressionFromSql (signText m ++ t) = .ok (.lit (some (.float (signText m ++ c% "inf"))) (.simple .double)) := by
  have hr := double_read h m
  rw [(floatOf_inf h).2 hv] at hr
  exact hr

/-! ## Printing -/

/-- What is printed for infinity is a column. -/
theorem infinity_column (m : Bool) : expressionFromSql (signText m ++ c% "inf") =
    .ok (if m then .un .neg (.field (c% "inf") none .unknown) else .field (c% "inf") none .unknown) := by
  cases m with
  | false => exact expr_of_parserN 40 (by krfl)
  | true => exact expr_of_parserN 40 (by krfl)

/-- C71. No double literal survives formatting: whatever is read from the text that is printed for it, if anything, is
another tree. -/
theorem C71_never (t : Str) (v : ℚ) (h : DoubleText t v) (m : Bool) (e : Expr) (he : expressionFromSql (signText m ++ t) = .ok e)
    (o : Opts) (s : Str) (hs : e.sql o = .ok s) (e' : Expr) (he' : expressionFromSql s = .ok e') : e' ≠ e := by
  rw [double_read h m] at he
  rw [← Except.ok.inj he] at hs ⊢
  have hs : signText m ++ (floatOf t).str = s := Except.ok.inj hs
  rw [← hs] at he'
  cases hf : floatOf t with
  | inf =>
    rw [hf] at he'
    have := infinity_column m
    rw [show (F64.inf).str = c% "inf" from rfl] at he'
    rw [this] at he'
    rw [← Except.ok.inj he']
    cases m <;> exact nofun
  | fin k x =>
    rw [hf] at he'
    obtain ⟨hc, hx, _⟩ := floatOf_fin h hf
    obtain ⟨w, hw | hw | hw, _⟩ := str_text hc hx
    · obtain ⟨d, ty, h1, _⟩ := zero_decimal m
      rw [hw.1, h1] at he'
      rw [← Except.ok.inj he']
      exact nofun
    · obtain ⟨d, ty, h1, _⟩ := point_decimal hw.1 hw.2.1 m
      rw [h1] at he'
      rw [← Except.ok.inj he']
      exact nofun
    · exact absurd he' (power_refused hw.1 m e')

/-- C71. A double from `0.0001` up to `1e16` is printed as a decimal: what is read from it is a DECIMAL constant, with the
number of the shortest text. -/
theorem C71_point_false (t : Str) (v : ℚ) (h : DoubleText t v) (h1 : 1 / 10 ^ 4 ≤ v) (h2 : v < 10 ^ 16 - 1) (m : Bool) (o : Opts) :
    ∃ e s d ty y w, expressionFromSql (signText m ++ t) = .ok e ∧ e.sql o = .ok s ∧
      expressionFromSql s = .ok (.lit (some (.dec d)) ty) ∧
      Nearest v y ∧ Shortest w y ∧ decimalValue d = if m then -w else w := by
  have hsmall : v < tooLarge := lt_trans h2 (by
    have := below_large (m := 5000000000000000) (e := 1) (by norm_num) (by norm_num)
    refine lt_trans ?_ this
    norm_num)
  obtain ⟨r, y, w, hr, hs, hn, hf, hw⟩ := C71_value_partial t v h hsmall m o
  have b1 := small_point hn hw h1
  have b2 : w < 10 ^ 16 := lt_of_not_ge (fun hc => absurd ((large_iff hn hw).1 hc) (not_le.2 h2))
  rcases hf with hf | hf | hf
  · rw [hf.2] at b1; norm_num at b1
  · obtain ⟨d, ty, g1, g2⟩ := point_decimal hf.1 b1 m
    exact ⟨_, _, d, ty, y, w, hr, hs, g1, hn, hw, g2⟩
  · rcases hf.2 with hc | hc
    · exact absurd b1 (not_le.2 hc)
    · exact absurd b2 (not_lt.2 hc)

/-- C71. A double of `1e16` or more is printed as a text that cannot be read. -/
theorem C71_large_unreadable (t : Str) (v : ℚ) (h : DoubleText t v) (h1 : 10 ^ 16 - 1 ≤ v) (h2 : v < tooLarge) (m : Bool) (o : Opts) :
    ∃ e s, expressionFromSql (signText m ++ t) = .ok e ∧ e.sql o = .ok s ∧ ∀ e', expressionFromSql s ≠ .ok e' := by
  obtain ⟨r, y, w, hr, hs, hn, hf, hw⟩ := C71_value_partial t v h h2 m o
  refine ⟨_, _, hr, hs, fun e' => ?_⟩
  have b1 := (large_iff hn hw).2 h1
  rcases hf with hf | hf | hf
  · rw [hf.2] at b1; norm_num at b1
  · exact absurd hf.2.2 (not_lt.2 b1)
  · exact power_refused hf.1 m e'

/-- C71. So is a double below `0.0001`, unless it is rounded to zero. -/
theorem C71_small_unreadable (t : Str) (v : ℚ) (h : DoubleText t v) (h1 : 2 ^ (-1074 : ℤ) ≤ v) (h2 : v ≤ 99 / 10 ^ 6) (m : Bool)
    (o : Opts) :
    ∃ e s, expressionFromSql (signText m ++ t) = .ok e ∧ e.sql o = .ok s ∧ ∀ e', expressionFromSql s ≠ .ok e' := by
  have hsmall : v < tooLarge := lt_of_le_of_lt h2 (by
    have := below_large (m := 1) (e := 0) (by norm_num) (by norm_num)
    refine lt_trans ?_ this
    norm_num)
  obtain ⟨r, y, w, hr, hs, hn, hf, hw⟩ := C71_value_partial t v h hsmall m o
  refine ⟨_, _, hr, hs, fun e' => ?_⟩
  obtain ⟨b0, b1⟩ := small_power hn hw h1 h2
  rcases hf with hf | hf | hf
  · exact absurd hf.2 b0
  · exact absurd hf.2.1 (not_le.2 b1)
  · exact power_refused hf.1 m e'

/-- C71. A double literal beyond the largest double is printed as the name of a column. -/
theorem C71_infinity_false (t : Str) (v : ℚ) (h : DoubleText t v) (hv : tooLarge ≤ v) :
    ∃ e, expressionFromSql t = .ok e ∧ e.sql {} = .ok (c% "inf") ∧
      expressionFromSql (c% "inf") = .ok (.field (c% "inf") none .unknown) :=
  ⟨_, C71_overflow t v h hv false, rfl, infinity_column false⟩

/-! ## Concrete cases -/

theorem text_whole (i xs : Str) (hi : Digits i) (hx : Digits xs) : DoubleText (i ++ 'E' :: xs) (number i * 10 ^ (number xs : ℤ)) :=
  .whole i _ _ hi (.none xs hx)

/-- `12.5E3` and its number. -/
theorem C71_text : DoubleText (c% "12.5E3") 12500 := by
  have := DoubleText.point (c% "12") (c% "5") (c% "E3") 3 ⟨by decide, by decide⟩ (by decide) (.none (c% "3") ⟨by decide, by decide⟩)
  rw [show written (c% "12") (c% "5") * 10 ^ (3 : ℤ) = 12500 by
    rw [written, show number (c% "12") = 12 by decide +kernel, show number (c% "5") = 5 by decide +kernel]
    norm_num] at this
  exact this

example : expressionFromSql (c% "12.5E3") = .ok (.lit (some (.float (c% "12500.0"))) (.simple .double)) :=
  (double_read C71_text false).trans (by krfl)
/-- `-12.5E3` becomes a DECIMAL. -/
example : ∃ e s d ty y w, expressionFromSql (signText true ++ c% "12.5E3") = .ok e ∧ e.sql {} = .ok s ∧
    expressionFromSql s = .ok (.lit (some (.dec d)) ty) ∧ Nearest 12500 y ∧ Shortest w y ∧ decimalValue d = if true then -w else w :=
  C71_point_false _ _ C71_text (by norm_num) (by norm_num) true {}
/-- `1E16` is printed as `1e+16`. -/
example : ∃ e s, expressionFromSql (signText false ++ c% "1E16") = .ok e ∧ e.sql {} = .ok s ∧ ∀ e', expressionFromSql s ≠ .ok e' :=
  C71_large_unreadable _ _ (text_whole (c% "1") (c% "16") ⟨by decide, by decide⟩ ⟨by decide, by decide⟩)
    (by rw [show number (c% "1") = 1 by decide +kernel, show number (c% "16") = 16 by decide +kernel]; norm_num)
    (by
      rw [show number (c% "1") = 1 by decide +kernel, show number (c% "16") = 16 by decide +kernel]
      refine lt_of_le_of_lt (le_of_eq ?_) (below_large (m := 5000000000000000) (e := 1) (by norm_num) (by norm_num))
      norm_num) false {}
example : expressionFromSql (c% "1E16") = .ok (.lit (some (.float (c% "1e+16"))) (.simple .double)) :=
  (double_read (text_whole (c% "1") (c% "16") ⟨by decide, by decide⟩ ⟨by decide, by decide⟩) false).trans (by krfl)
example : expressionFromSql (c% "-0E0") = .ok (.lit (some (.float (c% "-0.0"))) (.simple .double)) :=
  (double_read (text_whole (c% "0") (c% "0") ⟨by decide, by decide⟩ ⟨by decide, by decide⟩) true).trans (by krfl)
/-- The number is not kept: seventeen digits are. -/
example : expressionFromSql (c% "12345678901234567890E0") = .ok (.lit (some (.float (c% "1.2345678901234567e+19"))) (.simple .double)) :=
  (double_read (text_whole (c% "12345678901234567890") (c% "0") ⟨by decide, by decide⟩ ⟨by decide, by decide⟩) false).trans (by krfl)
example : expressionFromSql (c% "1E999") = .ok (.lit (some (.float (c% "inf"))) (.simple .double)) :=
  (double_read (text_whole (c% "1") (c% "999") ⟨by decide, by decide⟩ ⟨by decide, by decide⟩) false).trans (by krfl)

end Treeno.Props
