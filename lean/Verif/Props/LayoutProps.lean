import Verif.Lemmas.Relaid
import Verif.Lemmas.Krfl
import Verif.Props.LexerProps
import Verif.Props.RoundTripLimits
import Verif.Props.CallProps
/-!
# C68: white space and comments in SQL text
-/
set_option autoImplicit false
namespace Treeno.Props
open Treeno Spec

/-- `expression_from_sql`, `query_from_sql` and `type_from_sql` return or raise the same for both texts. -/
def ReadAlike (s s' : Str) : Prop :=
  expressionFromSql s' = expressionFromSql s ∧ queryFromSql s' = queryFromSql s ∧ typeFromSql s' = typeFromSql s

theorem readAlike_of_toks {s s' : Str} (h : toks s' = toks s) : ReadAlike s s' := by
  unfold ReadAlike expressionFromSql queryFromSql typeFromSql
  rw [h]
  exact ⟨rfl, rfl, rfl⟩

/-- **C68.** White space may be replaced by other white space: a text that has the same tokens and comments,
and some white space wherever the first text has some, is read alike. -/
theorem C68_white_space (s s' : Str) (h : Relaid (lex s) s') : ReadAlike s s' :=
  readAlike_of_toks (toks_relaid s.length s (Nat.le_refl _) h)

/-- A query on two lines and on three. -/
example : ReadAlike (c% "SELECT a -- b\nFROM t") (c% "SELECT\n\ta  -- b\nFROM \r\n t") :=
  C68_white_space _ _ <| show Relaid [⟨.kw, c% "SELECT"⟩, ⟨.ws, c% " "⟩, ⟨.ident, c% "a"⟩, ⟨.ws, c% " "⟩,
      ⟨.comment, c% "-- b\n"⟩, ⟨.kw, c% "FROM"⟩, ⟨.ws, c% " "⟩, ⟨.ident, c% "t"⟩] _ from
    .keep (.space (w := c% "\n\t") rfl (by decide) (by decide) (.keep (.space (w := c% "  ") rfl (by decide) (by decide)
      (.keep (.keep (.space (w := c% " \r\n ") rfl (by decide) (by decide) (.keep .nil)))))))

/-- **C68.** Any list of tokens that the lexer knows, written in order with white space and comments between
them, in any amount, is split into these tokens again. -/
theorem C68_tokens (ts : List Tok) (s : Str) (ht : ∀ t ∈ ts, LongestMatch t t.text ∧ t.visible = true ∧ t.kind ≠ .unrec)
    (h : Spread ts s) : toks s = ts := toks_spread h ht

/-- **C68.** So white space and comments may be put before, between and after the tokens of a text at will,
if no two tokens are joined: every such text is read alike.  The text must not have characters the lexer does
not know (an open quote would be closed by one in a comment, `C68_open_quote`), and a line comment must not
follow a minus sign or brace directly (`C68_minus_comment`). -/
theorem C68_comments (s s' : Str) (hk : ∀ t ∈ toks s, t.kind ≠ .unrec) (h : Spread (toks s) s') :
    ReadAlike s s' :=
  readAlike_of_toks (toks_spread h fun t ht => by
    obtain ⟨h1, h2⟩ := List.mem_filter.mp ht
    exact ⟨lex_own _ _ t h1, h2, hk t ht⟩)

/-- `a+1` with a comment between any two tokens and an open one at the end. -/
example : ReadAlike (c% "a+1") (c% "--x\na /*y*/+/*'*/\n1-- z") := by
  refine C68_comments _ _ (by decide +kernel) ?_
  have e : toks (c% "a+1") = [⟨.ident, c% "a"⟩, ⟨.sym, c% "+"⟩, ⟨.int, c% "1"⟩] := by decide +kernel
  rw [e]
  have g1 : Gap (c% "--x\n") := .line (c% "x") (c% "\n") [] (by decide) (by decide) (.inl rfl) .nil
  have g2 : Gap (c% " /*y*/") := .ws ' ' _ (.inl rfl) (.block (c% "y") [] (by decide) .nil)
  have g3 : Gap (c% "/*'*/\n") := .block (c% "'") (c% "\n") (by decide) (.ws _ _ (.inr (.inr (.inl rfl))) .nil)
  have g4 : LastGap (c% "-- z") := .inr ⟨[], c% " z", .nil, by decide, by decide, rfl⟩
  exact Spread.some (t := ⟨.ident, c% "a"⟩) g1 (fun h => absurd h (by decide))
    (SpreadAfter.next (t := ⟨.sym, c% "+"⟩) g2 (by decide) (fun h => absurd h (by decide))
      (SpreadAfter.next (t := ⟨.int, c% "1"⟩) g3 (by decide) (fun h => absurd h (by decide)) (.last g4)))

/-- A line comment after a minus sign: the sign becomes part of the comment. -/
theorem C68_minus_comment :
    toks (c% "a - b") ≠ toks (c% "a --- c\n b") ∧ toks (c% "a --- c\n b") = toks (c% "a b") := ⟨by decide +kernel, by decide +kernel⟩

/-- A quote in a comment closes an open quote. -/
theorem C68_open_quote :
    toks (c% "'a b") = [⟨.unrec, c% "'"⟩, ⟨.ident, c% "a"⟩, ⟨.ident, c% "b"⟩] ∧
      toks (c% "'a /*'*/ b") = [⟨.str, c% "'a /*'"⟩, ⟨.sym, c% "*"⟩, ⟨.sym, c% "/"⟩, ⟨.ident, c% "b"⟩] :=
  ⟨by decide +kernel, by decide +kernel⟩

end Treeno.Props
