import Verif.Lemmas.StableText
import Verif.Lemmas.DecStable
import Verif.Lemmas.Spaces
import Verif.Props.RoundTripLimits
import Verif.Props.CallProps
/-!
# C16: printing, reading and printing again; C18: the indentation in default mode
-/
set_option autoImplicit false
namespace Treeno.Props
open Spec

theorem bind_nothing (e : Expr) : mapExpr (bindNode []) id e = e := by
  have h : bindNode [] = id := by
    funext e
    cases e
    case field n tn t => cases tn <;> rfl
    all_goals rfl
  rw [h, mapIdExpr]
theorem bind_nothing_query (q : Query) : mapQuery (bindNode []) id q = q := by
  have h : bindNode [] = id := by
    funext e
    cases e
    case field n tn t => cases tn <;> rfl
    all_goals rfl
  rw [h, mapIdQuery]

/-- **C16 (expressions).** The text of a tidy, stable expression is read as a tree that prints as the same
text, in either mode and with any indentation. -/
theorem C16_expression_partial (e : Expr) (o : Opts) (s : Str) (t : Ty) (ht : e.Tidy false) (hf : e.Fits) (hst : e.Stable [] o)
    (hc : e.reread.check = .ok t) (hs : e.sql o = .ok s) : ∃ e', expressionFromSql s = .ok e' ∧ e'.sql o = .ok s := by
  refine ⟨e.reread, C13_round_trip_partial e o s t ht hf hc hs, ?_⟩
  have := st_Expr e [] hst o (.inl rfl) false nofun
  rw [bind_nothing] at this
  exact this.trans hs

/-- **C16 (queries).** -/
theorem C16_query_partial (q : Query) (o : Opts) (s : Str) (t : Ty) (ht : q.Tidy) (hf : q.Fits) (hst : q.Stable [] o)
    (hc : q.reread.check = .ok t) (hs : q.sql o = .ok s) : ∃ q', queryFromSql s = .ok (some q') ∧ q'.sql o = .ok s := by
  refine ⟨q.reread, C27_round_trip_partial q o s t ht hf hc hs, ?_⟩
  have := st_Query q [] hst o (.inl rfl)
  rw [bind_nothing_query] at this
  exact this.trans hs

/-- **C18 (indentation).** In default mode the number of spaces does not matter, as long as it is less than 80
(the printer refuses more). -/
theorem C18_indentation (e : Expr) (n : Nat) (hn : n < 80) (h : exprAll OneLine e) : e.sql ⟨.default, n⟩ = e.sql {} := by
  have : (OneLine : Str → Prop) = nb := by
    funext s; exact propext ⟨nb_of_mem, nb_mem⟩
  rw [this] at h
  exact sp_Expr hn e h false
theorem C18_query_indentation (q : Query) (n : Nat) (hn : n < 80) (h : queryAll OneLine q) : q.sql ⟨.default, n⟩ = q.sql {} := by
  have : (OneLine : Str → Prop) = nb := by
    funext s; exact propext ⟨nb_of_mem, nb_mem⟩
  rw [this] at h
  exact sp_Query hn q h

/-! ## The hypotheses are met -/

/-- `a <> b AND c = -1 OR NOT d > 2`, with typed columns, and a lambda expression; printed from negations. -/
def stableExpr : Expr :=
  .bin .or
    (.bin .and (.not (.bin .eq (.field (c% "a") none (.simple .integer)) (.field (c% "b") (some []) .unknown)))
      (.not (.bin .ne (col (c% "c")) (.un .neg (num 1)))))
    (.bin .and (.not (.bin .gt (col (c% "d")) (num 2))) (.inList (.subscript (col (c% "e")) (num 1)) [.lam [c% "x"] (.lam [c% "y"] (.bin .add (.var (c% "x")) (.bin .mul (.var (c% "y")) (.field (c% "x") (some (c% "t")) .unknown)))), bigExpr]))

theorem stableExpr_tidy : stableExpr.Tidy false := by decide +kernel
theorem stableExpr_fits : stableExpr.Fits := by decide +kernel
theorem stableExpr_stable : stableExpr.Stable [] {} ∧ stableExpr.Stable [] { mode := .pretty } := by decide +kernel
theorem stableExpr_check : stableExpr.reread.check = .ok .boolean := rfl

theorem C16_reached : ∃ s s', stableExpr.sql {} = .ok s ∧ stableExpr.sql { mode := .pretty } = .ok s' ∧ s ≠ s' ∧
    (∃ e, expressionFromSql s = .ok e ∧ e.sql {} = .ok s) ∧ (∃ e, expressionFromSql s' = .ok e ∧ e.sql { mode := .pretty } = .ok s') := by
  obtain ⟨s, s', h, h', hne⟩ : ∃ s s', stableExpr.sql {} = .ok s ∧ stableExpr.sql { mode := .pretty } = .ok s' ∧ s ≠ s' :=
    ⟨_, _, rfl, rfl, by decide +kernel⟩
  exact ⟨s, s', h, h', hne, C16_expression_partial _ _ _ _ stableExpr_tidy stableExpr_fits stableExpr_stable.1 stableExpr_check h,
    C16_expression_partial _ _ _ _ stableExpr_tidy stableExpr_fits stableExpr_stable.2 stableExpr_check h'⟩

theorem bigQuery_stable : bigQuery.Stable [] {} ∧ bigQuery.Stable [] { mode := .pretty, spaces := 2 } := by decide +kernel

theorem C16_query_reached : ∃ s s', bigQuery.sql {} = .ok s ∧ bigQuery.sql { mode := .pretty, spaces := 2 } = .ok s' ∧ s ≠ s' ∧
    (∃ q, queryFromSql s = .ok (some q) ∧ q.sql {} = .ok s) ∧
    (∃ q, queryFromSql s' = .ok (some q) ∧ q.sql { mode := .pretty, spaces := 2 } = .ok s') := by
  obtain ⟨s, s', h, h', hne⟩ : ∃ s s', bigQuery.sql {} = .ok s ∧ bigQuery.sql { mode := .pretty, spaces := 2 } = .ok s' ∧ s ≠ s' :=
    ⟨_, _, rfl, rfl, by decide +kernel⟩
  obtain ⟨t, ht⟩ := bigQuery_check
  exact ⟨s, s', h, h', hne, C16_query_partial _ _ _ _ bigQuery_tidy bigQuery_fits bigQuery_stable.1 (bigQuery_reread ▸ ht) h,
    C16_query_partial _ _ _ _ bigQuery_tidy bigQuery_fits bigQuery_stable.2 (bigQuery_reread ▸ ht) h'⟩

theorem C18_indentation_reached : (.case none [(.isNull (col (c% "a")), col (c% "b"))] none : Expr).sql ⟨.default, 7⟩ =
    (.case none [(.isNull (col (c% "a")), col (c% "b"))] none : Expr).sql {} :=
  C18_indentation _ 7 (by decide) (by
    refine ⟨trivial, ⟨⟨?_, trivial⟩, ⟨?_, trivial⟩, trivial⟩, trivial⟩ <;> exact nb_mem (by decide))

/-! ## Where the claim is false -/

/-- `e` is read back, but as a tree that prints as `s'` and not as `s`. -/
def Unstable (e : Expr) (o : Opts) (s s' : Str) : Prop :=
  e.sql o = .ok s ∧ s ≠ s' ∧ ∃ e', expressionFromSql s = .ok e' ∧ e'.sql o = .ok s'

/-- The parentheses around an inequality that was a negated equality are lost, and the new text is no longer
readable. -/
theorem C16_comparison_false : Unstable (.bin .eq (.not (.bin .eq (col (c% "a")) (col (c% "b")))) (col (c% "c"))) {}
      (c% "(\"a\" <> \"b\") = \"c\"") (c% "\"a\" <> \"b\" = \"c\"") ∧ expressionFromSql (c% "\"a\" <> \"b\" = \"c\"") = .error .syntax :=
  ⟨⟨rfl, by decide +kernel, .bin .eq (.bin .ne (col (c% "a")) (col (c% "b"))) (col (c% "c")), expr_of_parserN 60 (by krfl), rfl⟩,
   rest_error (n := 40) rfl⟩
theorem C16_predicate_false : Unstable (.isNull (.not (.bin .ne (col (c% "a")) (col (c% "b"))))) {}
      (c% "(\"a\" = \"b\") IS NULL") (c% "\"a\" = \"b\" IS NULL") :=
  ⟨rfl, by decide +kernel, .isNull (.bin .eq (col (c% "a")) (col (c% "b"))), expr_of_parserN 60 (by krfl), rfl⟩
/-- A double negation disappears only when it is printed for the second time. -/
theorem C16_double_negation_false : Unstable (.not (.not (.bin .eq (col (c% "a")) (col (c% "b"))))) {}
      (c% "NOT \"a\" <> \"b\"") (c% "\"a\" = \"b\"") :=
  ⟨rfl, by decide +kernel, .not (.bin .ne (col (c% "a")) (col (c% "b"))), expr_of_parserN 60 (by krfl), rfl⟩
theorem C16_minus_zero_false : Unstable (.un .neg (num 0)) {} (c% "-0") (c% "0") :=
  ⟨rfl, by decide +kernel, num 0, expr_of_parserN 60 (by krfl), rfl⟩
/-- A negated inequality is printed in default mode even when pretty mode is asked for; the equality that it is
read as is not. -/
theorem C16_pretty_false : Unstable (.not (.bin .ne (.case none [(col (c% "a"), col (c% "b"))] none) (col (c% "c")))) { mode := .pretty }
      (c% "CASE  WHEN \"a\" THEN \"b\" END = \"c\"") (c% "CASE \n    WHEN \"a\" THEN \"b\"\nEND = \"c\"") :=
  ⟨rfl, by decide +kernel, .bin .eq (.case none [(col (c% "a"), col (c% "b"))] none) (col (c% "c")), expr_of_parserN 60 (by krfl), rfl⟩
/-- A column with the name of an input is quoted, the variable that it is read as is not. -/
theorem C16_variable_false : Unstable (.lam [c% "x"] (col (c% "x"))) {} (c% "x -> \"x\"") (c% "x -> x") :=
  ⟨rfl, by decide +kernel, .lam [c% "x"] (.var (c% "x")), expr_of_parserN 60 (by krfl), rfl⟩

end Treeno.Props
