import Verif.Lemmas.LexEnd
import Verif.Lemmas.CleanWf
/-!
# What stands on the line after a text that leaves nothing open
-/
set_option linter.unusedSimpArgs false
set_option linter.unusedVariables false
namespace Treeno

variable {x : Str}

theorem clean_tail {b : Bool} {t : Tok} {ts : List Tok} (h : clean b (t :: ts) = true) : clean (t.isSym (c% "/")) ts = true := by
  rw [clean, Bool.and_eq_true, Bool.and_eq_true] at h
  exact h.2.2

theorem clean_head {b : Bool} {t : Tok} {ts : List Tok} (h : clean b (t :: ts) = true) : t.kind ≠ .unrec := by
  rw [clean, Bool.and_eq_true] at h
  simpa using h.1

/-- The quote is not closed. -/
def openQuote (q : Char) (r : Str) : Prop := ∃ r', r = q :: r' ∧ quotedBody q r' = none

theorem quotedBody_some (q : Char) (hq : q ≠ '\n') : ∀ (s b r : Str), quotedBody q s = some (b, r) →
    openQuote q r ∨ quotedBody q (s ++ '\n' :: x) = some (b, r ++ '\n' :: x)
  | [], b, r, h => by cases h
  | [c], b, r, h => by
    rw [quotedBody] at h
    split at h
    · rename_i hc
      cases h
      refine .inr ?_
      show quotedBody q (c :: '\n' :: x) = _
      rw [quotedBody, if_pos hc, if_neg (fun e => hq e.symm)]
      rfl
    · cases h
  | c :: d :: s, b, r, h => by
    show _ ∨ quotedBody q (c :: d :: (s ++ '\n' :: x)) = _
    rw [quotedBody] at h ⊢
    split at h
    · rename_i hc
      rw [if_pos hc]
      split at h
      · rename_i hd
        rw [if_pos hd]
        cases hs : quotedBody q s with
        | none =>
          rw [hs] at h
          cases h
          exact .inl ⟨s, by rw [hd], hs⟩
        | some p =>
          obtain ⟨b1, r1⟩ := p
          rw [hs] at h
          cases h
          rcases quotedBody_some q hq s b1 _ hs with h1 | h1
          · exact .inl h1
          · exact .inr (by rw [h1])
      · rename_i hd
        rw [if_neg hd]
        cases h
        exact .inr rfl
    · rename_i hc
      rw [if_neg hc]
      cases hs : quotedBody q (d :: s) with
      | none => rw [hs] at h; cases h
      | some p =>
        obtain ⟨b1, r1⟩ := p
        rw [hs] at h
        cases h
        rcases quotedBody_some q hq (d :: s) b1 _ hs with h1 | h1
        · exact .inl h1
        · exact .inr (by rw [← List.cons_append, h1]; rfl)

theorem openQuote_toks {q : Char} {r : Str} (hq : q = '\'' ∨ q = '"' ∨ q = '`') (h : openQuote q r) (b : Bool) :
    clean b (toks r) = false := by
  obtain ⟨r', rfl, h⟩ := h
  have : lexOne q r' = (⟨.unrec, [q]⟩, r') := by
    rcases hq with rfl | rfl | rfl
    · show lexQuoted .str '\'' r' = _
      rw [lexQuoted, h]
    · show lexQuoted .quoted '"' r' = _
      rw [lexQuoted, h]
    · show lexQuoted .backquoted '`' r' = _
      rw [lexQuoted, h]
  rw [toks_cons, this]
  rfl

theorem binaryBody_some : ∀ (s b r : Str), binaryBody s = some (b, r) → binaryBody (s ++ '\n' :: x) = some (b, r ++ '\n' :: x)
  | [], b, r, h => by cases h
  | c :: s, b, r, h => by
    rw [List.cons_append]
    rw [binaryBody] at h ⊢
    split at h
    · rename_i hc; rw [if_pos hc]; cases h; rfl
    · rename_i hc
      rw [if_neg hc]
      cases hs : binaryBody s with
      | none => rw [hs] at h; cases h
      | some p =>
        obtain ⟨b1, r1⟩ := p
        rw [hs] at h; cases h
        rw [binaryBody_some s b1 _ hs]; rfl

theorem binaryBody_no : ∀ s : Str, binaryBody s = none → '\'' ∉ s
  | [], h => by simp
  | c :: s, h => by
    rw [binaryBody] at h
    split at h
    · cases h
    · rename_i hc
      simp only [List.mem_cons, not_or]
      refine ⟨fun e => hc e.symm, binaryBody_no s ?_⟩
      cases hs : binaryBody s with
      | none => rfl
      | some p => rw [hs] at h; cases h

theorem commentBody_some : ∀ (s b r : Str), commentBody s = some (b, r) → commentBody (s ++ '\n' :: x) = some (b, r ++ '\n' :: x)
  | [], b, r, h => by cases h
  | [c], b, r, h => by cases h
  | c :: d :: s, b, r, h => by
    show commentBody (c :: d :: (s ++ '\n' :: x)) = _
    rw [commentBody] at h ⊢
    split at h
    · rename_i hc; rw [if_pos hc]; cases h; rfl
    · rename_i hc
      rw [if_neg hc]
      cases hs : commentBody (d :: s) with
      | none => rw [hs] at h; cases h
      | some p =>
        obtain ⟨b1, r1⟩ := p
        rw [hs] at h; cases h
        rw [← List.cons_append, commentBody_some (d :: s) b1 _ hs]; rfl

/-- `b` is what `a` is with the next line. -/
def Nexts (x : Str) (a b : Tok × Str) : Prop :=
  b.1.visible = a.1.visible ∧ (a.1.visible = true → b.1 = a.1) ∧ toks b.2 = toks (a.2 ++ '\n' :: x)

theorem Nexts.eq {a b : Tok × Str} (h : b = (a.1, a.2 ++ '\n' :: x)) : Nexts x a b := by
  subst h
  exact ⟨rfl, fun _ => rfl, rfl⟩

/-- The tokens that start with a token. -/
def after (a : Tok × Str) : List Tok := if a.1.visible then a.1 :: toks a.2 else toks a.2

theorem after_one (c : Char) (s : Str) : after (lexOne c s) = toks (c :: s) := (toks_cons c s).symm

theorem lexQuoted_next (k : Kind) (q : Char) (hq : q = '\'' ∨ q = '"' ∨ q = '`') (hk : Tok.visible ⟨k, []⟩ = true) (s : Str) {b : Bool}
    (hc : clean b (after (lexQuoted k q s)) = true) : Nexts x (lexQuoted k q s) (lexQuoted k q (s ++ '\n' :: x)) := by
  have hn : q ≠ '\n' := by rcases hq with rfl | rfl | rfl <;> decide
  unfold lexQuoted at hc ⊢
  cases h : quotedBody q s with
  | none =>
    rw [h] at hc
    exact absurd rfl (clean_head hc)
  | some p =>
    obtain ⟨b1, r⟩ := p
    rw [h] at hc
    dsimp only [after] at hc
    rw [show Tok.visible ⟨k, q :: b1⟩ = true from hk, if_pos rfl] at hc
    rcases quotedBody_some (x := x) q hn s b1 r h with h1 | h1
    · have := clean_tail hc
      rw [openQuote_toks hq h1] at this
      cases this
    · rw [h1]
      exact Nexts.eq rfl

theorem wordTok_visible (s : Str) : (wordTok s).1.visible = true := by
  unfold wordTok
  dsimp only
  split <;> rfl

theorem lexWord_next (s : Str) {b : Bool} (hc : clean b (after (lexWord s)) = true) : Nexts x (lexWord s) (lexWord (s ++ '\n' :: x)) := by
  generalize hR : lexWord s = R at hc
  unfold lexWord
  split
  · rename_i r h
    obtain ⟨s1, rfl, ha⟩ := app_cons h (by decide)
    obtain ⟨s1, rfl, hb⟩ := app_cons ha.symm (by decide)
    obtain ⟨s1, rfl, rfl⟩ := app_cons hb.symm (by decide)
    rw [lexWord_U] at hR
    cases hq : quotedBody '\'' s1 with
    | some p =>
      obtain ⟨b1, r⟩ := p
      rw [hq] at hR; subst hR
      rcases quotedBody_some (x := x) '\'' (by decide) s1 b1 r hq with h1 | h1
      · have := clean_tail hc
        rw [openQuote_toks (.inl rfl) h1] at this
        cases this
      · rw [h1]
        exact Nexts.eq rfl
    | none =>
      rw [hq] at hR; subst hR
      have := clean_tail (t := (wordTok ('U' :: '&' :: '\'' :: s1)).1) (ts := toks ('&' :: '\'' :: s1)) hc
      rw [toks_cons] at this
      exact absurd rfl (clean_head this)
  · rename_i r h
    obtain ⟨s1, rfl, ha⟩ := app_cons h (by decide)
    obtain ⟨s1, rfl, rfl⟩ := app_cons ha.symm (by decide)
    rw [lexWord_X] at hR
    cases hq : binaryBody s1 with
    | some p =>
      obtain ⟨b1, r⟩ := p
      rw [hq] at hR; subst hR
      rw [binaryBody_some _ _ _ hq]
      exact Nexts.eq rfl
    | none =>
      rw [hq] at hR; subst hR
      have := clean_tail (t := (wordTok ('X' :: '\'' :: s1)).1) (ts := toks ('\'' :: s1)) hc
      rw [openQuote_toks (.inl rfl) ⟨s1, rfl, quotedBody_none _ (binaryBody_no s1 hq)⟩] at this
      cases this
  · rename_i h1 h2
    subst hR
    refine Nexts.eq ?_
    unfold lexWord
    split
    · exact absurd rfl (h1 _)
    · exact absurd rfl (h2 _)
    · exact wordTok_nl _

theorem lexOne_next (c : Char) (s : Str) {b : Bool} (hc : clean b (after (lexOne c s)) = true) :
    Nexts x (lexOne c s) (lexOne c (s ++ '\n' :: x)) := by
  have ws : ∀ s : Str, toks ((s ++ '\n' :: x).dropWhile isWs) = toks (s.dropWhile isWs ++ '\n' :: x) := by
    intro s
    induction s with
    | nil => exact toks_dropWs _
    | cons d s ih =>
      rw [List.cons_append, List.dropWhile_cons, List.dropWhile_cons]
      split
      · exact ih
      · rfl
  unfold lexOne at hc ⊢
  split
  · exact ⟨rfl, fun h => (nomatch h), ws (c :: s)⟩
  · rename_i n1
    rw [if_neg n1] at hc
    split
    · rename_i h; rw [if_pos h] at hc
      exact lexWord_next (c :: s) hc
    · rename_i n2
      rw [if_neg n2] at hc
      split
      · exact .eq (lexNumber_nl (c :: s))
      · rename_i n3
        rw [if_neg n3] at hc
        split
        · exact .eq (lexDot_nl s)
        · rename_i n4
          rw [if_neg n4] at hc
          split
          · rename_i h; rw [if_pos h] at hc
            exact lexQuoted_next _ _ (.inl rfl) rfl s hc
          · rename_i n5
            rw [if_neg n5] at hc
            split
            · rename_i h; rw [if_pos h] at hc
              exact lexQuoted_next _ _ (.inr (.inl rfl)) rfl s hc
            · rename_i n6
              rw [if_neg n6] at hc
              split
              · rename_i h; rw [if_pos h] at hc
                exact lexQuoted_next _ _ (.inr (.inr rfl)) rfl s hc
              · rename_i n7
                rw [if_neg n7] at hc
                split
                · cases s with
                  | nil => exact .eq (lexSym_nl c [])
                  | cons d s =>
                    by_cases hd : d = '-'
                    · subst hd
                      exact ⟨rfl, fun h => (nomatch h), lineComment_nl s⟩
                    · have := lexSym_nl (x := x) c (d :: s)
                      rw [List.cons_append] at this ⊢
                      refine .eq ?_
                      split
                      · rename_i h; cases h; exact absurd rfl hd
                      · split
                        · rename_i h; cases h; exact absurd rfl hd
                        · exact this
                · rename_i n8
                  rw [if_neg n8] at hc
                  split
                  · rename_i h8
                    rw [if_pos h8] at hc
                    subst h8
                    cases s with
                    | nil => exact .eq (lexSym_nl '/' [])
                    | cons d s =>
                      by_cases hd : d = '*'
                      · subst hd
                        have hc : clean b (after (blockTok '/' s)) = true := hc
                        show Nexts x (blockTok '/' s) (blockTok '/' (s ++ '\n' :: x))
                        unfold blockTok at hc ⊢
                        cases hs : commentBody s with
                        | some p =>
                          rw [commentBody_some _ _ _ hs]
                          exact .eq rfl
                        | none =>
                          rw [hs] at hc
                          have h1 := clean_tail (t := ⟨.sym, c% "/"⟩) (ts := toks ('*' :: s)) hc
                          exfalso
                          have : (lexOne '*' s).1 = ⟨.sym, c% "*"⟩ := by
                            cases s with
                            | nil => rfl
                            | cons e s =>
                              show (if twoSyms.contains ['*', e] then _ else _ : Tok × Str).1 = _
                              rw [if_neg]
                              · rfl
                              · intro h
                                rw [List.contains_iff_mem] at h
                                simp [twoSyms] at h
                          rw [toks_cons, this] at h1
                          cases h1
                      · have := lexSym_nl (x := x) '/' (d :: s)
                        rw [List.cons_append] at this ⊢
                        refine .eq ?_
                        split
                        · rename_i h; cases h; exact absurd rfl hd
                        · split
                          · rename_i h; cases h; exact absurd rfl hd
                          · exact this
                  · exact .eq (lexSym_nl c s)

/-- **The tokens of a text that leaves nothing open and of what stands on the next line.** -/
theorem toks_next : ∀ (n : Nat) (b : Bool) (s : Str), s.length ≤ n → clean b (toks s) = true →
    toks (s ++ '\n' :: x) = toks s ++ toks x
  | _, _, [], _, _ => toks_ws _ _ (by decide)
  | 0, _, c :: s, h, _ => by simp at h
  | n + 1, b, c :: s, h, hc => by
    rw [← after_one] at hc
    obtain ⟨h1, h2, h3⟩ := lexOne_next (x := x) c s hc
    have hl : (lexOne c s).2.length ≤ n := by
      have := lexOne_length c s
      simp only [List.length_cons] at h
      omega
    rw [List.cons_append, toks_cons, toks_cons, h1, h3]
    rw [after] at hc
    split
    · rename_i hv
      rw [if_pos hv] at hc
      rw [h2 hv, toks_next n _ _ hl (clean_tail hc)]
      rfl
    · rename_i hv
      rw [if_neg hv] at hc
      exact toks_next n _ _ hl hc

end Treeno
