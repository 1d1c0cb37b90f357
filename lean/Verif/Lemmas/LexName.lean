import Verif.Lemmas.LexText
import Verif.Printer
/-!
# Lexing quoted names and strings
-/
namespace Treeno

/-- The text does not go on with a quote `q`. -/
def NotQuote (q : Char) (rest : Str) : Prop := rest.head? ≠ some q

theorem quotedBody_plain (q : Char) : ∀ (n rest : Str), q ∉ n → NotQuote q rest →
    quotedBody q (n ++ q :: rest) = some (n ++ [q], rest)
  | [], [], _, _ => by simp [quotedBody]
  | [], c :: r, _, h => by
    have : c ≠ q := fun e => h (by simp [e])
    simp [quotedBody, this]
  | c :: n, rest, hn, h => by
    have hc : c ≠ q := fun e => hn (by simp [e])
    have ih := quotedBody_plain q n rest (fun e => hn (List.mem_cons_of_mem _ e)) h
    obtain ⟨d, cs, hd⟩ : ∃ d cs, n ++ q :: rest = d :: cs := by
      cases n with
      | nil => exact ⟨_, _, rfl⟩
      | cons a l => exact ⟨_, _, rfl⟩
    rw [List.cons_append, hd, quotedBody, if_neg hc, ← hd, ih]
    simp

theorem toks_quoted (n rest : Str) (hn : '"' ∉ n) (h : NotQuote '"' rest) :
    toks (quoteIdent n ++ rest) = ⟨.quoted, quoteIdent n⟩ :: toks rest := by
  have e : quoteIdent n ++ rest = '"' :: (n ++ '"' :: rest) := by simp [quoteIdent]
  have hl : lexOne '"' (n ++ '"' :: rest) = (⟨.quoted, quoteIdent n⟩, rest) := by
    show lexQuoted .quoted '"' (n ++ '"' :: rest) = _
    rw [lexQuoted, quotedBody_plain _ _ _ hn h]
    simp [quoteIdent]
  rw [e, toks_step hl]
  rfl

theorem toks_string (n rest : Str) (hn : '\'' ∉ n) (h : NotQuote '\'' rest) :
    toks (quoteLit n ++ rest) = ⟨.str, quoteLit n⟩ :: toks rest := by
  have e : quoteLit n ++ rest = '\'' :: (n ++ '\'' :: rest) := by simp [quoteLit]
  have hl : lexOne '\'' (n ++ '\'' :: rest) = (⟨.str, quoteLit n⟩, rest) := by
    show lexQuoted .str '\'' (n ++ '\'' :: rest) = _
    rw [lexQuoted, quotedBody_plain _ _ _ hn h]
    simp [quoteLit]
  rw [e, toks_step hl]
  rfl

theorem toks_dot (rest : Str) (h : ∀ c, rest.head? = some c → isDigit c = false) :
    toks ('.' :: rest) = ⟨.sym, c% "."⟩ :: toks rest := by
  have hl : lexOne '.' rest = (⟨.sym, c% "."⟩, rest) := by
    show lexDot rest = _
    cases rest with
    | nil => rfl
    | cons c r =>
      have := h c rfl
      simp [lexDot, this]
  rw [toks_step hl]
  rfl

theorem stripC_quoted (q : Char) (n : Str) (h : q ∉ n) : stripC q ([q] ++ n ++ [q]) = n := by
  have hl : ∀ m : Str, q ∉ m → lstripC q m = m := by
    intro m hm
    cases m with
    | nil => rfl
    | cons a l =>
      have : a ≠ q := fun e => hm (by simp [e])
      simp [lstripC, this]
  have h1 : lstripC q ([q] ++ n ++ [q]) = lstripC q (n ++ [q]) := by
    simp [lstripC]
  unfold stripC
  rw [h1]
  cases n with
  | nil => simp [lstripC]
  | cons a l =>
    have ha : a ≠ q := fun e => h (by simp [e])
    have h2 : lstripC q (a :: l ++ [q]) = a :: l ++ [q] := by simp [lstripC, ha]
    rw [h2]
    have h3 : (a :: l ++ [q]).reverse = q :: (a :: l).reverse := by simp
    rw [h3]
    have h4 : lstripC q (q :: (a :: l).reverse) = lstripC q (a :: l).reverse := by simp [lstripC]
    rw [h4, hl _ (fun e => h (List.mem_reverse.mp e))]
    simp

end Treeno
