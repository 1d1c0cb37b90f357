import Verif.Lemmas.Double
import Verif.Lemmas.PrintParts
/-!
# Double literals as tokens
-/
set_option autoImplicit false
namespace Treeno
open Spec

theorem idRun_le (t rest : Str) (h : Safe rest = true) : ((t ++ rest).takeWhile isIdChar).length ≤ t.length := by
  induction t with
  | nil =>
    rcases safe_cases h with rfl | ⟨c, s, rfl, hc⟩
    · simp
    · rw [List.nil_append, List.takeWhile_cons, if_neg (by rw [safeC_not_id hc]; decide)]
  | cons c t ih =>
    rw [List.cons_append, List.takeWhile_cons]
    split
    · simp only [List.length_cons]; omega
    · simp

/-- The digits before another character. -/
theorem digit_run (w : Str) (c : Char) (r : Str) (hw : ∀ d ∈ w, isDigit d = true) (hc : isDigit c = false) :
    (w ++ c :: r).takeWhile isDigit = w ∧ (w ++ c :: r).dropWhile isDigit = c :: r := by
  induction w with
  | nil =>
    rw [List.nil_append, List.takeWhile_cons, List.dropWhile_cons, if_neg (by rw [hc]; decide), if_neg (by rw [hc]; decide)]
    exact ⟨rfl, rfl⟩
  | cons d w ih =>
    have hd := hw d (by simp)
    obtain ⟨a, b⟩ := ih (fun x hx => hw x (List.mem_cons_of_mem _ hx))
    rw [List.cons_append, List.takeWhile_cons, List.dropWhile_cons, if_pos hd, if_pos hd, a, b]
    exact ⟨rfl, rfl⟩

/-- The first character of an exponent. -/
theorem expoText_head {x : Str} {k : ℤ} (h : ExpoText x k) : ∃ r, x = 'E' :: r := by
  cases h <;> exact ⟨_, rfl⟩

theorem expo_chars {x : Str} {k : ℤ} (h : ExpoText x k) : ∀ c ∈ x, c = 'E' ∨ c = '+' ∨ c = '-' ∨ isDigit c = true := by
  intro c hc
  cases h with
  | none xs h =>
    rcases List.mem_cons.1 hc with rfl | hc
    · exact .inl rfl
    · exact .inr (.inr (.inr (h.2 c hc)))
  | plus xs h =>
    rcases List.mem_cons.1 hc with rfl | hc
    · exact .inl rfl
    · rcases List.mem_cons.1 hc with rfl | hc
      · exact .inr (.inl rfl)
      · exact .inr (.inr (.inr (h.2 c hc)))
  | minus xs h =>
    rcases List.mem_cons.1 hc with rfl | hc
    · exact .inl rfl
    · rcases List.mem_cons.1 hc with rfl | hc
      · exact .inr (.inr (.inl rfl))
      · exact .inr (.inr (.inr (h.2 c hc)))

theorem sign_digit {c : Char} (r : Str) (h : isDigit c = true) : optSign (c :: r) = ([], c :: r) := by
  unfold optSign
  split
  · rename_i e; injection e with e _; subst e; exact absurd h (by decide)
  · rename_i e; injection e with e _; subst e; exact absurd h (by decide)
  · rfl

theorem exponent_text {x : Str} {k : ℤ} (h : ExpoText x k) (rest : Str) (hr : Safe rest = true) :
    exponent (x ++ rest) = some (x, rest) := by
  have run : ∀ xs : Str, Digits xs → (xs ++ rest).takeWhile isDigit = xs ∧ (xs ++ rest).dropWhile isDigit = rest :=
    fun xs hx => takeWhile_safe isDigit xs rest hx.2 (fun _ => safe_not_digit) hr
  have ne : ∀ xs : Str, Digits xs → ¬ xs.isEmpty = true := fun xs hx e => hx.1 (List.isEmpty_iff.1 e)
  cases h with
  | none xs hx =>
    obtain ⟨a, b⟩ := run xs hx
    obtain ⟨c, s, rfl, hc⟩ := digit_head hx
    have e : optSign (c :: s ++ rest) = ([], c :: s ++ rest) := sign_digit _ hc
    show (if ((optSign (c :: s ++ rest)).2.takeWhile isDigit).isEmpty then none
      else some ('E' :: (optSign (c :: s ++ rest)).1 ++ (optSign (c :: s ++ rest)).2.takeWhile isDigit, (optSign (c :: s ++ rest)).2.dropWhile isDigit)) = _
    rw [e]
    dsimp only
    rw [a, b, if_neg (ne _ hx)]
    rfl
  | plus xs hx =>
    obtain ⟨a, b⟩ := run xs hx
    show (if ((xs ++ rest).takeWhile isDigit).isEmpty then none
      else some ('E' :: '+' :: (xs ++ rest).takeWhile isDigit, (xs ++ rest).dropWhile isDigit)) = _
    rw [a, b, if_neg (ne _ hx)]
  | minus xs hx =>
    obtain ⟨a, b⟩ := run xs hx
    show (if ((xs ++ rest).takeWhile isDigit).isEmpty then none
      else some ('E' :: '-' :: (xs ++ rest).takeWhile isDigit, (xs ++ rest).dropWhile isDigit)) = _
    rw [a, b, if_neg (ne _ hx)]

theorem double_chars {t : Str} {v : ℚ} (h : DoubleText t v) :
    ∀ c ∈ t, c = '.' ∨ c = 'E' ∨ c = '+' ∨ c = '-' ∨ isDigit c = true := by
  intro c hc
  cases h with
  | whole i x k hi hx =>
    rcases List.mem_append.1 hc with hc | hc
    · exact .inr (.inr (.inr (.inr (hi.2 c hc))))
    · exact .inr (expo_chars hx c hc)
  | point i f x k hi hf hx =>
    rcases List.mem_append.1 hc with hc | hc
    · rcases List.mem_append.1 hc with hc | hc
      · exact .inr (.inr (.inr (.inr (hi.2 c hc))))
      · rcases List.mem_cons.1 hc with rfl | hc
        · exact .inl rfl
        · exact .inr (.inr (.inr (.inr (hf c hc))))
    · exact .inr (expo_chars hx c hc)
  | dot f x k hf hx =>
    rcases List.mem_append.1 hc with hc | hc
    · rcases List.mem_cons.1 hc with rfl | hc
      · exact .inl rfl
      · exact .inr (.inr (.inr (.inr (hf.2 c hc))))
    · exact .inr (expo_chars hx c hc)

theorem double_nb {t : Str} {v : ℚ} (h : DoubleText t v) : nb t := by
  refine nb_of_mem fun c hc => ?_
  rcases double_chars h c hc with rfl | rfl | rfl | rfl | h
  · decide
  · decide
  · decide
  · decide
  · exact isDigit_nb h

theorem Lx.dbl {t : Str} {v : ℚ} (h : DoubleText t v) : Lx t [⟨.dbl, t⟩] := by
  intro k rest hr
  have hno : '\n' ∉ t := by
    intro hm
    rcases double_chars h _ hm with e | e | e | e | e <;> exact absurd e (by decide)
  rw [ind_plain _ _ hno]
  have lexed : ∀ c s, t = c :: s → isDigit c = true → mantissa (t ++ rest) = ((mantissa (t ++ rest)).1, (mantissa (t ++ rest)).2.1, (mantissa (t ++ rest)).2.2) →
      ∀ x k, ExpoText x k → (mantissa (t ++ rest)).2.2 = x ++ rest → (mantissa (t ++ rest)).2.1 ++ x = t →
      Treeno.toks (t ++ rest) = [⟨.dbl, t⟩] ++ Treeno.toks rest := by
    rintro c s rfl hc _ x k hx e1 e2
    have hl : lexOne c (s ++ rest) = (⟨.dbl, c :: s⟩, rest) := by
      rw [lexOne_digit _ hc, lexNumber]
      have : lexNum (c :: (s ++ rest)) = (⟨.dbl, c :: s⟩, rest) := by
        unfold lexNum
        rw [List.cons_append] at e1 e2
        rw [e1, exponent_text hx rest hr]
        dsimp only
        rw [e2]
      rw [this]
      have := idRun_le (c :: s) rest hr
      rw [List.cons_append] at this
      exact if_neg (show ¬ (c :: s).length < _ by omega)
    rw [List.cons_append, toks_step hl]; rfl
  cases h with
  | whole i x k hi hx =>
    obtain ⟨c, s, rfl, hc⟩ := digit_head hi
    obtain ⟨r, hE⟩ := expoText_head hx
    have hm : mantissa (c :: s ++ x ++ rest) = (.int, c :: s, x ++ rest) := by
      unfold mantissa
      subst hE
      obtain ⟨a, b⟩ := digit_run (c :: s) 'E' (r ++ rest) hi.2 (by decide)
      rw [show c :: s ++ 'E' :: r ++ rest = c :: s ++ 'E' :: (r ++ rest) by simp, a, b]
      rfl
    refine lexed c (s ++ x) rfl hc (by rw [hm]) x k hx ?_ ?_
    · rw [hm]
    · rw [hm]
  | point i f x k hi hf hx =>
    obtain ⟨c, s, rfl, hc⟩ := digit_head hi
    obtain ⟨r, hE⟩ := expoText_head hx
    have hm : mantissa (c :: s ++ '.' :: f ++ x ++ rest) = (.dec, c :: s ++ '.' :: f, x ++ rest) := by
      unfold mantissa
      subst hE
      obtain ⟨a, b⟩ := digit_run (c :: s) '.' (f ++ ('E' :: (r ++ rest))) hi.2 (by decide)
      obtain ⟨a2, b2⟩ := digit_run f 'E' (r ++ rest) hf (by decide)
      have e : c :: s ++ '.' :: f ++ 'E' :: r ++ rest = c :: s ++ '.' :: (f ++ ('E' :: (r ++ rest))) := by simp
      rw [e, a, b]
      show (Kind.dec, c :: s ++ '.' :: (f ++ 'E' :: (r ++ rest)).takeWhile isDigit, (f ++ 'E' :: (r ++ rest)).dropWhile isDigit) = _
      rw [a2, b2]
      rfl
    refine lexed c (s ++ '.' :: f ++ x) rfl hc (by rw [hm]) x k hx ?_ ?_
    · rw [hm]
    · rw [hm]
  | dot f x k hf hx =>
    obtain ⟨r, hE⟩ := expoText_head hx
    have hl : lexOne '.' (f ++ x ++ rest) = (⟨.dbl, '.' :: f ++ x⟩, rest) := by
      show lexDot (f ++ x ++ rest) = _
      unfold lexDot
      obtain ⟨a, b⟩ := digit_run f 'E' (r ++ rest) hf.2 (by decide)
      have e : f ++ x ++ rest = f ++ 'E' :: (r ++ rest) := by subst hE; simp
      rw [e, a, b]
      dsimp only
      rw [if_neg (fun e => hf.1 (List.isEmpty_iff.1 e)), show 'E' :: (r ++ rest) = x ++ rest by subst hE; rfl,
        exponent_text hx rest hr]
    show Treeno.toks ('.' :: (f ++ x ++ rest)) = _
    rw [toks_step hl]; rfl

theorem Tx.dbl {t : Str} {v : ℚ} (h : DoubleText t v) : Tx t [⟨.dbl, t⟩] := by
  have hnb := double_nb h
  have hb : Bg t = true := by
    cases h with
    | whole i x k hi hx => exact digits_bg hi _
    | point i f x k hi hf hx => rw [List.append_assoc]; exact digits_bg hi _
    | dot f x k hf hx => rfl
  exact ⟨.ofLx (Lx.dbl h) (.of_nb hnb), Ends.of_nb hnb (by rintro rfl; cases hb), .inl hb⟩

/-! ## The number -/

theorem expoVal_text {x : Str} {k : ℤ} (h : ExpoText x k) : expoVal x = k := by
  cases h with
  | none xs hx =>
    obtain ⟨c, s, rfl, hc⟩ := digit_head hx
    rw [number_val]
    unfold expoVal
    split
    · rename_i e
      injection e with _ e; injection e with e _; subst e; exact absurd hc (by decide)
    · rename_i e
      injection e with _ e; injection e with e _; subst e; exact absurd hc (by decide)
    · rename_i e
      injection e with _ e; subst e; rfl
    · rename_i e
      exact absurd rfl (e _)
  | plus xs hx => rw [number_val]; rfl
  | minus xs hx => rw [number_val]; rfl

theorem dblParts_value {t : Str} {v : ℚ} (h : DoubleText t v) : ((dblParts t).1 : ℚ) * 10 ^ (dblParts t).2 = v := by
  unfold dblParts
  cases h with
  | whole i x k hi hx =>
    obtain ⟨r, hE⟩ := expoText_head hx
    obtain ⟨a, b⟩ := digit_run i 'E' r hi.2 (by decide)
    rw [← hE] at a b
    rw [a, b]
    have : fraction x = ([], x) := by subst hE; rfl
    rw [this]
    dsimp only
    rw [expoVal_text hx, List.append_nil, number_val]
    simp
  | point i f x k hi hf hx =>
    obtain ⟨r, hE⟩ := expoText_head hx
    obtain ⟨a, b⟩ := digit_run i '.' (f ++ x) hi.2 (by decide)
    obtain ⟨a2, b2⟩ := digit_run f 'E' r hf (by decide)
    rw [← hE] at a2 b2
    rw [List.append_assoc, List.cons_append, a, b]
    show ((digitsVal (i ++ (f ++ x).takeWhile isDigit) : ℕ) : ℚ) * 10 ^ (expoVal ((f ++ x).dropWhile isDigit) - (((f ++ x).takeWhile isDigit).length : ℤ)) = _
    rw [a2, b2, expoVal_text hx, written_number, number_val, mul_assoc, ← ten_add]
    congr 2; ring
  | dot f x k hf hx =>
    obtain ⟨r, hE⟩ := expoText_head hx
    obtain ⟨a2, b2⟩ := digit_run f 'E' r hf.2 (by decide)
    rw [← hE] at a2 b2
    show ((digitsVal ([] ++ (f ++ x).takeWhile isDigit) : ℕ) : ℚ) * 10 ^ (expoVal ((f ++ x).dropWhile isDigit) - (((f ++ x).takeWhile isDigit).length : ℤ)) = _
    rw [a2, b2, expoVal_text hx, written_number, number_val, mul_assoc, ← ten_add]
    congr 2; ring

/-- `float` of a double literal. -/
theorem floatOf_fin {t : Str} {v : ℚ} (h : DoubleText t v) {m : ℕ} {e : ℤ} (hf : floatOf t = .fin m e) :
    Canonical m e ∧ e ≤ 971 ∧ Nearest v (m * 2 ^ e) := by
  have := toF64_fin (by positivity) hf
  rw [decF64_value, dblParts_value h] at this
  exact this

theorem floatOf_inf {t : Str} {v : ℚ} (h : DoubleText t v) : floatOf t = .inf ↔ tooLarge ≤ v := by
  have := toF64_inf (n := (dblParts t).1 * 10 ^ (dblParts t).2.toNat) (d := 10 ^ (-(dblParts t).2).toNat) (by positivity)
  rw [decF64_value, dblParts_value h] at this
  exact this

/-- The text of a finite float stands for a number that is rounded to it. -/
theorem str_text {m : ℕ} {e : ℤ} (h : Canonical m e) (he : e ≤ 971) :
    ∃ w, FloatText (F64.fin m e).str w ∧ Shortest w (m * 2 ^ e) := by
  by_cases hm : m = 0
  · subst hm
    refine ⟨0, .inl ⟨rfl, rfl⟩, ?_⟩
    have hz : e = -1074 := by
      rcases h.2.1 with h | h
      · omega
      · exact h
    subst hz
    have := (toF64_fin (n := 0) (d := 1) (by norm_num) rfl).2.2
    have this : Nearest 0 (((0 : ℕ) : ℚ) * 2 ^ (-1074 : ℤ)) := by simpa using this
    refine ⟨this, fun n w' _ _ => ⟨0, 0, by positivity, by simp⟩, fun n w' _ _ _ => ?_⟩
    simp
  · obtain ⟨h17, hr⟩ := digitsOf_spec h he hm
    have hc : (digitsOf (.fin m e) (numerator m e) (denominator e)).1 ≠ 0 := by
      intro h0
      rw [h0] at hr
      have := hr.rounds.near 0 ⟨0, 0, by norm_num, by norm_num, by norm_num, by norm_num⟩
      rw [Nat.cast_zero, zero_mul, sub_zero, abs_zero, zero_sub, abs_neg] at this
      rcases mul_eq_zero.1 (abs_nonpos_iff.1 this) with h1 | h1
      · exact hm (by exact_mod_cast h1)
      · exact absurd h1 (two_pos e).ne'
    refine ⟨_, ?_, hr⟩
    rw [show (F64.fin m e).str = formatParts _ _ from if_neg hm]
    exact formatParts_text hc h17 _

end Treeno
