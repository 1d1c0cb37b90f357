import Verif.Lemmas.PrintToks
/-!
# C17: pretty and default text consist of the same tokens

`Tidy` (Spec/Tidy.lean) restricts the names, strings and numbers of a tree and leaves out the nodes whose
text is not SQL at all; any nesting of operators, subqueries, joins and clauses is allowed.
-/
set_option autoImplicit false
namespace Treeno.Props
open Spec

/-- **C17 (expressions).** Whatever the mode and the indentation, the printed texts of an expression consist
of the same tokens in the same order.  Missing: trees that are not `Tidy`; `C17_comment` shows that the
claim fails for some of them. -/
theorem C17_expression_tokens_partial (e : Expr) (o o' : Opts) (s s' : Str) (h : e.Tidy false)
    (hs : e.sql o = .ok s) (hs' : e.sql o' = .ok s') : toks s = toks s' :=
  (toks_expr h hs).trans (toks_expr h hs').symm

/-- **C17 (queries).** -/
theorem C17_query_tokens_partial (q : Query) (o o' : Opts) (s s' : Str) (h : q.Tidy)
    (hs : q.sql o = .ok s) (hs' : q.sql o' = .ok s') : toks s = toks s' :=
  (toks_query h hs).trans (toks_query h hs').symm

/-- `(x + 1) * y AND CASE … END` -/
def tidySample : Expr :=
  .bin .and (.bin .eq (.bin .mul (.bin .add (.field (c% "x") (some (c% "t")) .unknown) (.lit (some (.int (-1))) .unknown)) (.field (c% "y") none .unknown))
      (.lit (some (.dec ⟨false, 125, -2⟩)) .unknown))
    (.case none [(.isNull (.field (c% "z") none .unknown), .lit (some (.str (c% "a -- b"))) .unknown)] (some (.lit none .unknown)))

theorem tidySample_tidy : tidySample.Tidy false := by
  unfold tidySample
  simp only [Expr_Tidy_bin, Expr_Tidy_field, Expr_Tidy_lit, Expr_Tidy_case, Expr_TidyOpt_none, Expr_TidyOpt_some,
    Expr_TidyWhens_cons, Expr_TidyWhens_nil, Expr_Tidy_isNull, LitOk, DecOk, StrOk, NameOk, NoBreak, IfAny, truthy]
  refine ⟨⟨⟨⟨⟨?_, ?_⟩, ?_⟩, ?_⟩, ?_⟩, ?_⟩
  · decide
  · intro a h; cases h; decide
  · trivial
  · exact ⟨by decide, fun _ h => nomatch h⟩
  · decide
  · exact ⟨trivial, by simp, ⟨⟨by decide, fun _ h => nomatch h⟩, by decide, trivial⟩, trivial⟩

/-- The two texts of the sample differ. -/
example : tidySample.sql {} = .ok (c% "(\"t\".\"x\" + -1) * \"y\" = 1.25 AND CASE  WHEN \"z\" IS NULL THEN 'a -- b' ELSE NULL END") ∧
    tidySample.sql { mode := .pretty } =
      .ok (c% "(\"t\".\"x\" + -1) * \"y\" = 1.25\nAND CASE \n    WHEN \"z\" IS NULL THEN 'a -- b'\n    ELSE NULL\nEND") :=
  ⟨rfl, rfl⟩

/-- `-(-x)` is printed as `--"x"`, the start of a comment.  In default mode the rest of the text is gone, in
pretty mode the part after the next line break survives; so for this tree the claim is false. -/
theorem C17_comment :
    let e := Expr.bin .and (.un .neg (.un .neg (.field (c% "x") none .unknown))) (.field (c% "y") none .unknown)
    e.sql {} = .ok (c% "--\"x\" AND \"y\"") ∧ toks (c% "--\"x\" AND \"y\"") = [] ∧
    e.sql { mode := .pretty } = .ok (c% "--\"x\"\nAND \"y\"") ∧
      toks (c% "--\"x\"\nAND \"y\"") = [⟨.kw, c% "AND"⟩, ⟨.quoted, c% "\"y\""⟩] :=
  ⟨rfl, by decide +kernel, rfl, by decide +kernel⟩

/-- A string literal with a line break is changed by the indentation of pretty mode. -/
theorem C17_line_break :
    let q := Query.mk (.select [.lit (some (.str (c% "a\nb"))) .unknown] none none none none false []) none none [] []
    ∃ s s', q.sql {} = .ok s ∧ q.sql { mode := .pretty } = .ok s' ∧ toks s ≠ toks s' := by
  refine ⟨_, _, rfl, rfl, ?_⟩
  decide +kernel

end Treeno.Props
