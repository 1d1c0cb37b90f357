import Verif.Lemmas.LexText
/-!
# What stands on the next line does not change the tokens before it
-/
set_option linter.unusedSimpArgs false
set_option linter.unusedVariables false
namespace Treeno

/-- A text that ends no literal, name or comment that is open. -/
def EndsNothing (x : Str) : Prop := '\'' ∉ x ∧ '"' ∉ x ∧ '`' ∉ x ∧ commentBody x = none

variable {x : Str}

theorem app_cons {s r : Str} {c : Char} (h : s ++ '\n' :: x = c :: r) (hc : c ≠ '\n') : ∃ s', s = c :: s' ∧ r = s' ++ '\n' :: x := by
  cases s with
  | nil =>
    simp only [List.nil_append, List.cons.injEq] at h
    exact absurd h.1.symm hc
  | cons d s =>
    simp only [List.cons_append, List.cons.injEq] at h
    exact ⟨s, by rw [h.1], h.2.symm⟩

theorem takeWhile_nl (p : Char → Bool) (hp : p '\n' = false) : ∀ s : Str, (s ++ '\n' :: x).takeWhile p = s.takeWhile p
  | [] => by simp [hp]
  | c :: s => by
    rw [List.cons_append, List.takeWhile_cons, List.takeWhile_cons, takeWhile_nl p hp s]

theorem dropWhile_nl (p : Char → Bool) (hp : p '\n' = false) : ∀ s : Str, (s ++ '\n' :: x).dropWhile p = s.dropWhile p ++ '\n' :: x
  | [] => by simp [hp]
  | c :: s => by
    rw [List.cons_append, List.dropWhile_cons, List.dropWhile_cons, dropWhile_nl p hp s]
    split <;> simp

theorem quotedBody_none (q : Char) : ∀ {s : Str}, q ∉ s → quotedBody q s = none
  | [], _ => rfl
  | [c], h => by
    simp only [List.mem_singleton] at h
    rw [quotedBody, if_neg (fun e => h e.symm)]
  | c :: d :: s, h => by
    simp only [List.mem_cons, not_or] at h
    rw [quotedBody, if_neg (fun e => h.1 e.symm), quotedBody_none q (by simp [h.2])]
    rfl

theorem quotedBody_nl (q : Char) (hq : q ≠ '\n') (hx : q ∉ x) : ∀ s : Str,
    quotedBody q (s ++ '\n' :: x) = (quotedBody q s).map fun p => (p.1, p.2 ++ '\n' :: x)
  | [] => by
    rw [List.nil_append, quotedBody_none q (by simp [hq, hx])]
    rfl
  | [c] => by
    show quotedBody q (c :: '\n' :: x) = _
    rw [quotedBody, quotedBody]
    split
    · rw [if_neg (fun e => hq e.symm)]; rfl
    · rw [quotedBody_none q (by simp [hq, hx])]
      rfl
  | c :: d :: s => by
    show quotedBody q (c :: d :: (s ++ '\n' :: x)) = _
    rw [quotedBody, quotedBody]
    have h1 := quotedBody_nl q hq hx s
    have h2 := quotedBody_nl q hq hx (d :: s)
    split
    · split
      · rw [h1]
        cases quotedBody q s <;> rfl
      · rfl
    · rw [show d :: (s ++ '\n' :: x) = d :: s ++ '\n' :: x from rfl, h2]
      cases quotedBody q (d :: s) <;> rfl

theorem binaryBody_none : ∀ {s : Str}, '\'' ∉ s → binaryBody s = none
  | [], _ => rfl
  | c :: s, h => by
    simp only [List.mem_cons, not_or] at h
    rw [binaryBody, if_neg (fun e => h.1 e.symm), binaryBody_none h.2]
    rfl

theorem binaryBody_nl (hx : '\'' ∉ x) : ∀ s : Str, binaryBody (s ++ '\n' :: x) = (binaryBody s).map fun p => (p.1, p.2 ++ '\n' :: x)
  | [] => by
    rw [List.nil_append, binaryBody_none (by simp [hx])]
    rfl
  | c :: s => by
    rw [List.cons_append, binaryBody, binaryBody]
    split
    · rfl
    · rw [binaryBody_nl hx s]
      cases binaryBody s <;> rfl

theorem commentBody_end (hx : EndsNothing x) : commentBody ('\n' :: x) = none := by
  cases x with
  | nil => rfl
  | cons d x =>
    rw [commentBody, if_neg (by rintro ⟨h, _⟩; cases h), hx.2.2.2]
    rfl

theorem commentBody_nl (hx : EndsNothing x) : ∀ s : Str,
    commentBody (s ++ '\n' :: x) = (commentBody s).map fun p => (p.1, p.2 ++ '\n' :: x)
  | [] => commentBody_end hx
  | [c] => by
    show commentBody (c :: '\n' :: x) = none
    rw [commentBody, if_neg (by rintro ⟨_, h⟩; cases h), commentBody_end hx]
    rfl
  | c :: d :: s => by
    show commentBody (c :: d :: (s ++ '\n' :: x)) = _
    have h := commentBody_nl hx (d :: s)
    rw [commentBody, commentBody]
    split
    · rfl
    · rw [show d :: (s ++ '\n' :: x) = d :: s ++ '\n' :: x from rfl, h]
      cases commentBody (d :: s) <;> rfl

theorem optSign_nl (s : Str) : optSign (s ++ '\n' :: x) = ((optSign s).1, (optSign s).2 ++ '\n' :: x) := by
  unfold optSign
  split
  · rename_i r h
    obtain ⟨s', rfl, rfl⟩ := app_cons h (by decide)
    rfl
  · rename_i r h
    obtain ⟨s', rfl, rfl⟩ := app_cons h (by decide)
    rfl
  · rename_i h1 h2
    split
    · exact absurd rfl (h1 _)
    · exact absurd rfl (h2 _)
    · rfl

theorem exponent_nl (s : Str) : exponent (s ++ '\n' :: x) = (exponent s).map fun p => (p.1, p.2 ++ '\n' :: x) := by
  unfold exponent
  split
  · rename_i r h
    obtain ⟨s', rfl, rfl⟩ := app_cons h (by decide)
    rw [optSign_nl, takeWhile_nl _ (by decide), dropWhile_nl _ (by decide)]
    show (if _ then none else some _) = Option.map _ (if ((optSign s').2.takeWhile isDigit).isEmpty then none else some _)
    split <;> rfl
  · rename_i h1
    split
    · exact absurd rfl (h1 _)
    · rfl

theorem mantissa_nl (s : Str) : mantissa (s ++ '\n' :: x) = ((mantissa s).1, (mantissa s).2.1, (mantissa s).2.2 ++ '\n' :: x) := by
  unfold mantissa
  rw [dropWhile_nl _ (by decide), takeWhile_nl _ (by decide)]
  split
  · rename_i r h
    obtain ⟨s', h1, rfl⟩ := app_cons h (by decide)
    rw [h1, takeWhile_nl _ (by decide), dropWhile_nl _ (by decide)]
    rfl
  · rename_i h1
    split
    · rename_i r h
      rw [h] at h1
      exact absurd rfl (h1 _)
    · rfl

theorem lexNum_nl (s : Str) : lexNum (s ++ '\n' :: x) = ((lexNum s).1, (lexNum s).2 ++ '\n' :: x) := by
  unfold lexNum
  rw [mantissa_nl, exponent_nl]
  dsimp only
  cases exponent (mantissa s).2.2 <;> rfl

theorem lexNumber_nl (s : Str) : lexNumber (s ++ '\n' :: x) = ((lexNumber s).1, (lexNumber s).2 ++ '\n' :: x) := by
  unfold lexNumber
  rw [lexNum_nl, takeWhile_nl _ (by decide), dropWhile_nl _ (by decide)]
  split <;> rfl

theorem wordTok_nl (s : Str) : wordTok (s ++ '\n' :: x) = ((wordTok s).1, (wordTok s).2 ++ '\n' :: x) := by
  unfold wordTok
  rw [takeWhile_nl _ (by decide), dropWhile_nl _ (by decide)]

theorem lexWord_U (r : Str) : lexWord ('U' :: '&' :: '\'' :: r) = (match quotedBody '\'' r with
    | some (b, r') => (⟨.ustr, 'U' :: '&' :: '\'' :: b⟩, r')
    | none => wordTok ('U' :: '&' :: '\'' :: r)) := rfl

theorem lexWord_X (r : Str) : lexWord ('X' :: '\'' :: r) = (match binaryBody r with
    | some (b, r') => (⟨.bin, 'X' :: '\'' :: b⟩, r')
    | none => wordTok ('X' :: '\'' :: r)) := rfl

theorem lexWord_nl (hx : EndsNothing x) (s : Str) : lexWord (s ++ '\n' :: x) = ((lexWord s).1, (lexWord s).2 ++ '\n' :: x) := by
  generalize hR : lexWord s = R
  unfold lexWord
  split
  · rename_i r h
    obtain ⟨s1, rfl, ha⟩ := app_cons h (by decide)
    obtain ⟨s1, rfl, hb⟩ := app_cons ha.symm (by decide)
    obtain ⟨s1, rfl, rfl⟩ := app_cons hb.symm (by decide)
    rw [lexWord_U] at hR
    rw [quotedBody_nl _ (by decide) hx.1]
    cases hq : quotedBody '\'' s1 with
    | some p => rw [hq] at hR; subst hR; rfl
    | none => rw [hq] at hR; subst hR; exact wordTok_nl _
  · rename_i r h
    obtain ⟨s1, rfl, ha⟩ := app_cons h (by decide)
    obtain ⟨s1, rfl, rfl⟩ := app_cons ha.symm (by decide)
    rw [lexWord_X] at hR
    rw [binaryBody_nl hx.1]
    cases hq : binaryBody s1 with
    | some p => rw [hq] at hR; subst hR; rfl
    | none => rw [hq] at hR; subst hR; exact wordTok_nl _
  · rename_i h1 h2
    subst hR
    unfold lexWord
    split
    · exact absurd rfl (h1 _)
    · exact absurd rfl (h2 _)
    · exact wordTok_nl _

theorem lexDot_nl (s : Str) : lexDot (s ++ '\n' :: x) = ((lexDot s).1, (lexDot s).2 ++ '\n' :: x) := by
  unfold lexDot
  rw [takeWhile_nl _ (by decide), dropWhile_nl _ (by decide), exponent_nl]
  dsimp only
  split
  · rfl
  · cases exponent (s.dropWhile isDigit) <;> rfl

theorem lexQuoted_nl (k : Kind) (q : Char) (hq : q ≠ '\n') (hx : q ∉ x) (s : Str) :
    lexQuoted k q (s ++ '\n' :: x) = ((lexQuoted k q s).1, (lexQuoted k q s).2 ++ '\n' :: x) := by
  unfold lexQuoted
  rw [quotedBody_nl q hq hx]
  cases quotedBody q s <;> rfl

theorem two_nl (c : Char) : twoSyms.contains [c, '\n'] = false := by
  rw [Bool.eq_false_iff]
  intro h
  rw [List.contains_iff_mem] at h
  simp [twoSyms] at h

theorem lexSym_nl (c : Char) (s : Str) : lexSym c (s ++ '\n' :: x) = ((lexSym c s).1, (lexSym c s).2 ++ '\n' :: x) := by
  cases s with
  | nil =>
    show lexSym c ('\n' :: x) = _
    unfold lexSym
    dsimp only
    rw [two_nl]
    rfl
  | cons d s =>
    rw [List.cons_append]
    unfold lexSym
    dsimp only
    split <;> rfl

theorem lineComment_nl (s : Str) : toks (lineComment (s ++ '\n' :: x)).2 = toks ((lineComment s).2 ++ '\n' :: x) := by
  have hw : toks ('\n' :: x) = toks x := toks_ws _ _ (by decide)
  unfold lineComment
  rw [dropWhile_nl _ (by decide)]
  dsimp only
  generalize s.dropWhile (fun c => c != '\r' && c != '\n') = d
  split
  · rename_i r h
    obtain ⟨d', rfl, ha⟩ := app_cons h (by decide)
    cases d' with
    | nil =>
      simp only [List.nil_append, List.cons.injEq, true_and] at ha
      rw [ha]
      exact hw.symm
    | cons e d' =>
      simp only [List.cons_append, List.cons.injEq] at ha
      obtain ⟨rfl, rfl⟩ := ha
      rfl
  · rename_i r h1 h
    obtain ⟨d', rfl, rfl⟩ := app_cons h (by decide)
    split
    · rename_i r h2
      simp only [List.cons.injEq, true_and] at h2
      rw [h2] at h1
      exact absurd rfl (h1 _)
    · rename_i r _ h2
      simp only [List.cons.injEq, true_and] at h2
      rw [h2]
    · rename_i r h2
      cases h2
    · rename_i h2 h3 h4
      exact absurd rfl (h3 _)
  · rename_i r h
    cases d with
    | nil =>
      simp only [List.nil_append, List.cons.injEq, true_and] at h
      rw [← h]
      exact hw.symm
    | cons e d =>
      simp only [List.cons_append, List.cons.injEq] at h
      obtain ⟨rfl, rfl⟩ := h
      rfl
  · rename_i h1 h2 h3
    split
    · exact absurd rfl (h1 _)
    · exact absurd rfl (h2 _)
    · exact absurd rfl (h3 _)
    · rfl

/-- What `lexOne` does after `/*`. -/
def blockTok (c : Char) (r : Str) : Tok × Str :=
  match commentBody r with
  | some (b, r') => (⟨.comment, '/' :: '*' :: b⟩, r')
  | none => lexSym c ('*' :: r)

theorem blockTok_nl (hx : EndsNothing x) (c : Char) (s : Str) :
    blockTok c (s ++ '\n' :: x) = ((blockTok c s).1, (blockTok c s).2 ++ '\n' :: x) := by
  unfold blockTok
  rw [commentBody_nl hx s]
  cases commentBody s with
  | some p => rfl
  | none => exact lexSym_nl c ('*' :: s)

/-- One token. -/
theorem lexOne_nl (hx : EndsNothing x) (c : Char) (s : Str) :
    (lexOne c (s ++ '\n' :: x)).1.visible = (lexOne c s).1.visible ∧
    ((lexOne c s).1.visible = true → (lexOne c (s ++ '\n' :: x)).1 = (lexOne c s).1) ∧
    toks (lexOne c (s ++ '\n' :: x)).2 = toks ((lexOne c s).2 ++ '\n' :: x) := by
  have key : ∀ {a b : Tok × Str}, b = (a.1, a.2 ++ '\n' :: x) →
      b.1.visible = a.1.visible ∧ (a.1.visible = true → b.1 = a.1) ∧ toks b.2 = toks (a.2 ++ '\n' :: x) := by
    rintro a b rfl
    exact ⟨rfl, fun _ => rfl, rfl⟩
  have ws : ∀ s : Str, toks ((s ++ '\n' :: x).dropWhile isWs) = toks (s.dropWhile isWs ++ '\n' :: x) := by
    intro s
    induction s with
    | nil => exact toks_dropWs _
    | cons d s ih =>
      rw [List.cons_append, List.dropWhile_cons, List.dropWhile_cons]
      split
      · exact ih
      · rfl
  unfold lexOne
  split
  · exact ⟨rfl, fun h => (nomatch h), ws (c :: s)⟩
  · split
    · exact key (lexWord_nl hx (c :: s))
    · split
      · exact key (lexNumber_nl (c :: s))
      · split
        · exact key (lexDot_nl s)
        · split
          · exact key (lexQuoted_nl _ _ (by decide) hx.1 s)
          · split
            · exact key (lexQuoted_nl _ _ (by decide) hx.2.1 s)
            · split
              · exact key (lexQuoted_nl _ _ (by decide) hx.2.2.1 s)
              · split
                · cases s with
                  | nil => exact key (lexSym_nl c [])
                  | cons d s =>
                    by_cases hd : d = '-'
                    · subst hd
                      exact ⟨rfl, fun h => (nomatch h), lineComment_nl s⟩
                    · have := lexSym_nl (x := x) c (d :: s)
                      rw [List.cons_append] at this ⊢
                      refine key ?_
                      split
                      · rename_i h; cases h; exact absurd rfl hd
                      · split
                        · rename_i h; cases h; exact absurd rfl hd
                        · exact this
                · split
                  · cases s with
                    | nil => exact key (lexSym_nl c [])
                    | cons d s =>
                      by_cases hd : d = '*'
                      · subst hd
                        exact key (blockTok_nl hx c s)
                      · have := lexSym_nl (x := x) c (d :: s)
                        rw [List.cons_append] at this ⊢
                        refine key ?_
                        split
                        · rename_i h; cases h; exact absurd rfl hd
                        · split
                          · rename_i h; cases h; exact absurd rfl hd
                          · exact this
                  · exact key (lexSym_nl c s)

/-- **The tokens of a text and of what stands on the next line.** -/
theorem toks_nl (hx : EndsNothing x) : ∀ (n : Nat) (s : Str), s.length ≤ n → toks (s ++ '\n' :: x) = toks s ++ toks x
  | _, [], _ => toks_ws _ _ (by decide)
  | 0, c :: s, h => by simp at h
  | n + 1, c :: s, h => by
    obtain ⟨h1, h2, h3⟩ := lexOne_nl hx c s
    have hl : (lexOne c s).2.length ≤ n := by
      have := lexOne_length c s
      simp only [List.length_cons] at h
      omega
    rw [List.cons_append, toks_cons, toks_cons, h1, h3, toks_nl hx n _ hl]
    split
    · rename_i hv
      rw [h2 hv]
      rfl
    · rfl

end Treeno
