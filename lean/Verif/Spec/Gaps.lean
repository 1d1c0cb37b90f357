import Verif.Lexer
/-!
# White space and comments between tokens
-/
namespace Treeno.Spec
open Treeno

/-- White space and complete comments, in any number and order. -/
inductive Gap : Str → Prop
  | nil : Gap []
  | ws (c g) : c = ' ' ∨ c = '\t' ∨ c = '\n' ∨ c = '\r' → Gap g → Gap (c :: g)
  | block (b g) : ¬ (c% "*/" <:+: b ++ c% "*") → Gap g → Gap (c% "/*" ++ b ++ c% "*/" ++ g)
  | line (b e g) : '\r' ∉ b → '\n' ∉ b → e = c% "\n" ∨ e = c% "\r\n" ∨ e = c% "\r" → Gap g →
      Gap (c% "--" ++ b ++ e ++ g)

/-- At the end of a text a line comment need not be closed. -/
def LastGap (s : Str) : Prop :=
  Gap s ∨ ∃ g b, Gap g ∧ '\r' ∉ b ∧ '\n' ∉ b ∧ s = g ++ c% "--" ++ b

/-- The token does not run into a line comment after it: `-` and `--` make `---`, `{` and `--` make `{---`. -/
def Clear (t : Tok) (s : Str) : Prop := t.text = c% "-" ∨ t.text = c% "{" → ¬ (c% "--" <+: s)

/-- The tokens in order, each after a gap that is not empty. -/
inductive SpreadAfter : List Tok → Str → Prop
  | last {g} : LastGap g → SpreadAfter [] g
  | next {g t ts s} : Gap g → g ≠ [] → Clear t s → SpreadAfter ts s → SpreadAfter (t :: ts) (g ++ t.text ++ s)

/-- The tokens in order with gaps between them that are not empty, and any gaps before and after. -/
inductive Spread : List Tok → Str → Prop
  | none {g} : LastGap g → Spread [] g
  | some {g t ts s} : Gap g → Clear t s → SpreadAfter ts s → Spread (t :: ts) (g ++ t.text ++ s)

/-- The text with these tokens (comments and white space included) written with other white space: where
there was some there is some, where there was none there is none. -/
inductive Relaid : List Tok → Str → Prop
  | nil : Relaid [] []
  | keep {t ts s} : Relaid ts s → Relaid (t :: ts) (t.text ++ s)
  | space {t ts s w} : t.kind = .ws → w ≠ [] → (∀ c ∈ w, c = ' ' ∨ c = '\t' ∨ c = '\n' ∨ c = '\r') →
      Relaid ts s → Relaid (t :: ts) (w ++ s)

end Treeno.Spec
