import Verif.Lexer
/-!
# Lemmas about the lexer
-/
namespace Treeno

theorem quotedBody_append (q : Char) (s b r : Str) (h : quotedBody q s = some (b, r)) :
    b ++ r = s ∧ b ≠ [] := by
  fun_induction quotedBody q s generalizing b r with
  | case1 => simp at h
  | case2 => simp at h; obtain ⟨rfl, rfl⟩ := h; simp
  | case3 => simp at h
  | case4 cs b' r' h' ih =>
    simp at h; obtain ⟨rfl, rfl⟩ := h
    simp [(ih _ _ h').1]
  | case5 => simp at h; obtain ⟨rfl, rfl⟩ := h; simp
  | case6 => simp at h; obtain ⟨rfl, rfl⟩ := h; simp
  | case7 c d cs hc ih =>
    simp only [Option.map_eq_some_iff, Prod.mk.injEq] at h
    obtain ⟨⟨a, b⟩, h1, rfl, rfl⟩ := h
    simp [(ih _ _ h1).1]

theorem binaryBody_append (s b r : Str) (h : binaryBody s = some (b, r)) : b ++ r = s := by
  fun_induction binaryBody s generalizing b r with
  | case1 => simp at h
  | case2 => simp at h; obtain ⟨rfl, rfl⟩ := h; simp
  | case3 c cs hc ih =>
    simp only [Option.map_eq_some_iff, Prod.mk.injEq] at h
    obtain ⟨⟨a, b⟩, h1, rfl, rfl⟩ := h
    simp [ih _ _ h1]

theorem commentBody_append (s b r : Str) (h : commentBody s = some (b, r)) : b ++ r = s := by
  fun_induction commentBody s generalizing b r with
  | case1 => simp at h
  | case2 => simp at h
  | case3 c d cs hc => simp at h; obtain ⟨rfl, rfl⟩ := h; simp [hc]
  | case4 c d cs hc ih =>
    simp only [Option.map_eq_some_iff, Prod.mk.injEq] at h
    obtain ⟨⟨a, b⟩, h1, rfl, rfl⟩ := h
    simp [ih _ _ h1]

theorem lineComment_append (s : Str) : (lineComment s).1 ++ (lineComment s).2 = s := by
  unfold lineComment
  have h := List.takeWhile_append_dropWhile (p := fun c => c != '\r' && c != '\n') (l := s)
  dsimp only
  split <;> (first | (rename_i h'; rw [h'] at h; simpa using h) | simpa using h)

theorem optSign_append (s : Str) : (optSign s).1 ++ (optSign s).2 = s := by
  unfold optSign; split <;> simp

theorem exponent_append (s e r : Str) (h : exponent s = some (e, r)) : e ++ r = s := by
  unfold exponent at h
  split at h
  · rename_i s'
    split at h <;> simp at h
    obtain ⟨rfl, rfl⟩ := h
    simp [optSign_append]
  · simp at h

theorem mantissa_append (s : Str) : (mantissa s).2.1 ++ (mantissa s).2.2 = s := by
  unfold mantissa
  have h := List.takeWhile_append_dropWhile (p := isDigit) (l := s)
  split <;> rename_i h1
  · rw [h1] at h; simpa using h
  · exact h

theorem lexNum_append (s : Str) : (lexNum s).1.text ++ (lexNum s).2 = s := by
  unfold lexNum
  have h := mantissa_append s
  split <;> rename_i h1
  · rw [← exponent_append _ _ _ h1] at h; simpa using h
  · exact h

theorem lexNumber_append (s : Str) : (lexNumber s).1.text ++ (lexNumber s).2 = s := by
  unfold lexNumber
  split
  · simp
  · exact lexNum_append s

theorem wordTok_append (s : Str) : (wordTok s).1.text ++ (wordTok s).2 = s := by
  simp [wordTok]

theorem lexWord_append (s : Str) : (lexWord s).1.text ++ (lexWord s).2 = s := by
  unfold lexWord
  split
  · split
    · rename_i h; simp [(quotedBody_append _ _ _ _ h).1]
    · exact wordTok_append _
  · split
    · rename_i h; simp [binaryBody_append _ _ _ h]
    · exact wordTok_append _
  · exact wordTok_append _

theorem lexDot_append (r : Str) : (lexDot r).1.text ++ (lexDot r).2 = '.' :: r := by
  unfold lexDot
  dsimp only
  split
  · simp
  · split
    · rename_i h; simp [exponent_append _ _ _ h]
    · simp

theorem lexQuoted_append (k : Kind) (q : Char) (r : Str) :
    (lexQuoted k q r).1.text ++ (lexQuoted k q r).2 = q :: r := by
  unfold lexQuoted
  split
  · rename_i h; simp [(quotedBody_append _ _ _ _ h).1]
  · simp

theorem lexSym_append (c : Char) (r : Str) : (lexSym c r).1.text ++ (lexSym c r).2 = c :: r := by
  unfold lexSym
  split
  · split <;> simp
  · simp

/-- The token and the rest spell the input. -/
theorem lexOne_append (c : Char) (s : Str) : (lexOne c s).1.text ++ (lexOne c s).2 = c :: s := by
  unfold lexOne
  split
  · simp
  split
  · exact lexWord_append _
  split
  · exact lexNumber_append _
  split
  · rename_i h; subst h; exact lexDot_append _
  split
  · rename_i h; subst h; exact lexQuoted_append _ _ _
  split
  · rename_i h; subst h; exact lexQuoted_append _ _ _
  split
  · rename_i h; subst h; exact lexQuoted_append _ _ _
  split
  · rename_i h; subst h
    split
    · simp [lineComment_append]
    · exact lexSym_append _ _
  split
  · rename_i h; subst h
    split
    · split
      · rename_i h; simp [commentBody_append _ _ _ h]
      · exact lexSym_append _ _
    · exact lexSym_append _ _
  · exact lexSym_append _ _

theorem isIdStart_isIdChar {c : Char} (h : isIdStart c = true) : isIdChar c = true := by
  simp only [isIdStart, isIdChar, Bool.or_eq_true] at *
  rcases h with h | h <;> simp [h]

theorem isDigit_isIdChar {c : Char} (h : isDigit c = true) : isIdChar c = true := by
  simp [isIdChar, h]

theorem lexSym_ne_nil (c : Char) (s : Str) : (lexSym c s).1.text ≠ [] := by
  unfold lexSym; split
  · split <;> simp
  · simp

theorem lexNum_ne_nil (c : Char) (s : Str) (h : isDigit c = true) : (lexNum (c :: s)).1.text ≠ [] := by
  have : (mantissa (c :: s)).2.1 ≠ [] := by
    unfold mantissa; split <;> simp [h]
  unfold lexNum; split <;> simp [this]

theorem wordTok_ne_nil (c : Char) (s : Str) (h : isIdChar c = true) :
    (wordTok (c :: s)).1.text ≠ [] := by
  simp [wordTok, h]

/-- No token is empty. -/
theorem lexOne_ne_nil (c : Char) (s : Str) : (lexOne c s).1.text ≠ [] := by
  unfold lexOne
  split
  · rename_i h; simp [h]
  split
  · rename_i h
    have := wordTok_ne_nil c s (isIdStart_isIdChar h)
    unfold lexWord; split
    · rename_i h'; injection h' with h1 h2; subst h1 h2
      split
      · simp
      · exact this
    · rename_i h'; injection h' with h1 h2; subst h1 h2
      split
      · simp
      · exact this
    · exact this
  split
  · rename_i h
    have := lexNum_ne_nil c s h
    unfold lexNumber; split
    · simp [isDigit_isIdChar h]
    · exact this
  split
  · unfold lexDot; dsimp only; split
    · simp
    · split <;> simp
  split
  · unfold lexQuoted; split <;> simp
  split
  · unfold lexQuoted; split <;> simp
  split
  · unfold lexQuoted; split <;> simp
  split
  · split
    · simp
    · exact lexSym_ne_nil _ _
  split
  · split
    · split
      · simp
      · exact lexSym_ne_nil _ _
    · exact lexSym_ne_nil _ _
  · exact lexSym_ne_nil _ _

theorem lexOne_length (c : Char) (s : Str) : (lexOne c s).2.length ≤ s.length := by
  have h := congrArg List.length (lexOne_append c s)
  have h2 := List.length_pos_iff.mpr (lexOne_ne_nil c s)
  simp at h; omega

theorem lexGo_fuel (n : Nat) (s : Str) (h : s.length ≤ n) : lexGo n s = lexGo s.length s := by
  induction n using Nat.strongRecOn generalizing s with
  | _ n ih =>
    cases s with
    | nil => simp [lexGo]
    | cons c s =>
      cases n with
      | zero => simp at h
      | succ n =>
        have hl := lexOne_length c s
        simp only [List.length_cons] at h ⊢
        simp only [lexGo]
        rw [ih n (by omega) _ (by omega)]
        rcases Nat.lt_or_ge s.length (n + 1) with hs | hs
        · rw [ih s.length hs _ hl]
        · omega

@[simp] theorem lex_nil : lex [] = [] := rfl

theorem lex_cons (c : Char) (s : Str) : lex (c :: s) = (lexOne c s).1 :: lex (lexOne c s).2 := by
  unfold lex
  simp only [List.length_cons, lexGo]
  rw [lexGo_fuel _ _ (lexOne_length c s)]

@[simp] theorem toks_nil : toks [] = [] := rfl

theorem toks_cons (c : Char) (s : Str) :
    toks (c :: s) =
      if (lexOne c s).1.visible then (lexOne c s).1 :: toks (lexOne c s).2 else toks (lexOne c s).2 := by
  unfold toks
  rw [lex_cons, List.filter_cons]

theorem lex_flatten (s : Str) : ((lex s).map Tok.text).flatten = s := by
  induction h : s.length using Nat.strongRecOn generalizing s with
  | _ n ih =>
    cases s with
    | nil => simp
    | cons c s =>
      rw [lex_cons, List.map_cons, List.flatten_cons, ih _ _ _ rfl]
      · exact lexOne_append c s
      · have := lexOne_length c s; simp at h; omega

end Treeno
