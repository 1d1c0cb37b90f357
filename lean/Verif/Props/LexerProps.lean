import Verif.Lemmas.LexMunch
import Verif.Spec.Terminals

/-!
C52: splitting SQL text into tokens is total, loses nothing, and follows the longest-match rule of
the grammar (treeno/grammar/SqlBase.g4 858-1219).
-/
set_option autoImplicit false
namespace Treeno.Props
open Spec

/-- C52. The texts of the tokens, comments and white space included, give back the input. -/
theorem C52_lossless (s : Str) : ((lex s).map Tok.text).flatten = s := lex_flatten s

/-- C52. No token is empty, so the lexer always makes progress. -/
theorem C52_tokens_nonempty (s : Str) : ∀ t ∈ lex s, t.text ≠ [] := by
  suffices h : ∀ n s, ∀ t ∈ lexGo n s, t.text ≠ [] from h _ s
  intro n
  induction n with
  | zero => intro s t h; cases s <;> simp [lexGo] at h
  | succ n ih =>
    intro s t h
    cases s with
    | nil => simp [lexGo] at h
    | cons c s =>
      simp only [lexGo, List.mem_cons] at h
      rcases h with rfl | h
      · exact lexOne_ne_nil c s
      · exact ih _ _ h

/-- C52. Every token of the input, wherever it stands, is the one the lexer rules of the grammar
select there: a match of a rule, no match of any rule is longer, and no earlier rule matches the same
length. -/
theorem C52_longest_match (s : Str) (pre suf : List Tok) (t : Tok) (h : lex s = pre ++ t :: suf) :
    LongestMatch t (t.text ++ (suf.map Tok.text).flatten) := by
  have one : ∀ c s, LongestMatch (lexOne c s).1 (c :: s) := fun c s =>
    ⟨⟨_, lexOne_append c s⟩, lexOne_matches c s,
      fun k w r happ hm => lexOne_best c s k w r happ hm⟩
  induction pre generalizing s with
  | nil =>
    cases s with
    | nil => simp [lex_nil] at h
    | cons c s =>
      rw [lex_cons] at h
      simp at h
      obtain ⟨rfl, rfl⟩ := h
      rw [lex_flatten, lexOne_append]
      exact one c s
  | cons p pre ih =>
    cases s with
    | nil => simp [lex_nil] at h
    | cons c s =>
      rw [lex_cons] at h
      simp at h
      exact ih _ h.2

/-- C52. The rules determine the token: any two longest matches of the same text have the same text
and a rule of the same priority. -/
theorem C52_deterministic (t u : Tok) (s : Str) (h1 : LongestMatch t s) (h2 : LongestMatch u s) :
    t = u := by
  obtain ⟨⟨r1, e1⟩, m1, b1⟩ := h1
  obtain ⟨⟨r2, e2⟩, m2, b2⟩ := h2
  have a1 := b1 _ _ _ e2 m2
  have a2 := b2 _ _ _ e1 m1
  have hl : t.text.length = u.text.length := by omega
  have hr : rank t.kind = rank u.kind := by omega
  have ht : t.text = u.text := List.append_inj_left (e1.trans e2.symm) hl
  obtain ⟨k1, t1⟩ := t
  obtain ⟨k2, t2⟩ := u
  simp only at ht hr
  subst ht
  have : k1 = k2 := by cases k1 <;> cases k2 <;> first | rfl | exact absurd hr (by decide)
  rw [this]

set_option maxRecDepth 20000 in
/-- C52. The keywords the lexer knows are the spellings of the grammar, no more and no fewer. -/
theorem C52_keywords (w : Str) : isKeyword w = true ↔ KeywordSpelling w := by
  have h1 : twoSpellings = keywords.map (fun k => (k, lower k)) := rfl
  have h2 : oneSpelling = upperKeywords := rfl
  unfold KeywordSpelling isKeyword
  rw [h1, h2]
  simp only [Bool.or_eq_true, List.contains_iff_mem, List.mem_map]
  constructor
  · rintro ((h | ⟨k, h, rfl⟩) | h)
    · exact .inl ⟨_, ⟨w, h, rfl⟩, .inl rfl⟩
    · exact .inl ⟨_, ⟨k, h, rfl⟩, .inr rfl⟩
    · exact .inr h
  · rintro (⟨_, ⟨k, h, rfl⟩, rfl | rfl⟩ | h)
    · exact .inl (.inl h)
    · exact .inl (.inr ⟨k, h, rfl⟩)
    · exact .inr h

/-- C52. So are the operators and punctuation marks. -/
theorem C52_operators (w : Str) : Matches .sym w ↔ w ∈ operatorSpellings := by
  constructor
  · intro h
    cases h with
    | sym1 c hc =>
      have : oneSyms.all (fun c => operatorSpellings.contains [c]) = true := by decide +kernel
      simpa using List.all_eq_true.1 this c hc
    | sym2 _ hw =>
      have : twoSyms.all operatorSpellings.contains = true := by decide +kernel
      simpa using List.all_eq_true.1 this w hw
  · have : operatorSpellings.all (fun w => twoSyms.contains w || match w with
      | [c] => oneSyms.contains c
      | _ => false) = true := by decide +kernel
    intro hw
    have := List.all_eq_true.1 this w hw
    rw [Bool.or_eq_true] at this
    rcases this with h | h
    · exact .sym2 _ (by simpa using h)
    · split at h
      · exact .sym1 _ (by simpa using h)
      · simp at h

/-- C52. Digits, letters and white space are those of the grammar's fragments. -/
theorem C52_classes (c : Char) :
    (isDigit c = true ↔ IsDigit c) ∧ (isIdStart c = true ↔ IsLetter c ∨ c = '_') ∧
    (isIdChar c = true ↔ IsLetter c ∨ IsDigit c ∨ c = '_') ∧
    (isWs c = true ↔ c ∈ [' ', '\r', '\n', '\t']) := by
  have hd : isDigit c = true ↔ IsDigit c := by
    simp only [isDigit, IsDigit, Bool.and_eq_true, decide_eq_true_eq]
    exact Iff.rfl
  have hl : isLetter c = true ↔ IsLetter c := by
    simp only [isLetter, IsLetter, Bool.and_eq_true, Bool.or_eq_true, decide_eq_true_eq]
    exact or_comm
  refine ⟨hd, ?_, ?_, ?_⟩
  · simp [isIdStart, hl]
  · simp [isIdChar, hl, hd, or_assoc]
  · simp [isWs, or_assoc]

-- a keyword, a hidden comment, a number followed by letters, an escaped quote, a lone symbol
example : lex (c% "select x -- c\n, 1.5e '' '") =
    [⟨.kw, c% "select"⟩, ⟨.ws, c% " "⟩, ⟨.ident, c% "x"⟩, ⟨.ws, c% " "⟩, ⟨.comment, c% "-- c\n"⟩,
     ⟨.sym, c% ","⟩, ⟨.ws, c% " "⟩, ⟨.dec, c% "1.5"⟩, ⟨.ident, c% "e"⟩, ⟨.ws, c% " "⟩,
     ⟨.str, c% "''"⟩, ⟨.ws, c% " "⟩, ⟨.unrec, c% "'"⟩] := by rfl

-- `--` starts a comment rather than two minus signs
example : toks (c% "1 --1") = [⟨.int, c% "1"⟩] := by rfl

end Treeno.Props
