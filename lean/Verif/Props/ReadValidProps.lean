import Verif.Lemmas.ReadValid
import Verif.Props.PrintableProps
import Verif.Props.CliProps
/-!
# C76: the constructors accept what is read
-/
set_option autoImplicit false
namespace Treeno.Props
open Spec

/-- **C76.** Whatever `expression_from_sql` returns can be built by hand: each of its nodes passes the checks of its
constructor, and so it has a data type. -/
theorem C76_expression (s : Str) (e : Expr) (h : expressionFromSql s = .ok e) : ∃ t, e.check = .ok t := by
  unfold expressionFromSql at h
  split at h
  · exact made_CE _ e h
  · cases h

/-- **C76.** So it is with `query_from_sql`. -/
theorem C76_query (s : Str) (q : Query) (h : queryFromSql s = .ok (some q)) : ∃ t, q.check = .ok t := read_query h

/-- **C76.** In particular the columns of a SELECT, its FROM relation, its conditions and its windows, and the named
queries and sort keys around it, pass their constructors, and there is at least one column. -/
theorem C76_parts (s : Str) (items : List Expr) (fr : Option Rel) (wh : Option Expr) (gb : Option GroupBy) (hv : Option Expr)
    (d : Bool) (wins : List (Str × Win)) (off lim : Option Int) (ob : List Ord) (w : List Named)
    (h : queryFromSql s = .ok (some (.mk (.select items fr wh gb hv d wins) off lim ob w))) :
    items ≠ [] ∧ (∀ e ∈ items, ∃ t, e.check = .ok t) ∧ (∀ r ∈ fr, r.check = .ok ()) ∧ (∀ e ∈ wh, ∃ t, e.check = .ok t) ∧
      (∀ g ∈ gb, g.check = .ok ()) ∧ (∀ e ∈ hv, ∃ t, e.check = .ok t) ∧ (∀ p ∈ wins, p.2.check = .ok ()) ∧
      (∀ k ∈ ob, ∃ v x y t, k = .mk v x y ∧ v.check = .ok t) ∧ ∀ n ∈ w, n.check = .ok () := by
  have opt : ∀ x : Option Expr, Expr.checkOpt x = .ok () → ∀ e ∈ x, ∃ t, e.check = .ok t := by
    intro x hx e he
    cases he
    rw [Expr_checkOpt_some] at hx
    obtain ⟨t, ht, _⟩ := bind_ok hx
    exact ⟨t, ht⟩
  obtain ⟨t, ht⟩ := C76_query s _ h
  obtain ⟨hw, hob, hb⟩ := parts_check.1 ht
  rw [QBody_check_select] at hb
  obtain ⟨ts, h1, hb⟩ := bind_ok hb
  obtain ⟨⟨⟩, h2, hb⟩ := bind_ok hb
  obtain ⟨⟨⟩, h3, hb⟩ := bind_ok hb
  obtain ⟨⟨⟩, h4, hb⟩ := bind_ok hb
  obtain ⟨⟨⟩, h5, hb⟩ := bind_ok hb
  obtain ⟨⟨⟩, h6, hb⟩ := bind_ok hb
  refine ⟨?_, each_expr _ _ h1, ?_, opt wh h3, ?_, opt hv h5, each_win _ h6, each_key _ hob, each_named _ hw⟩
  · rintro rfl
    cases hb
  · intro r hr
    cases hr
    exact h2
  · intro g hg
    cases hg
    exact h4

/-- **C76.** What was read is printed, in either mode and with any indentation below 80, exactly if no NORMALIZE
occurs in the printed part and no window refers to a parent window that is named like the first word of one of its own
clauses. -/
theorem C76_printed (s : Str) (q : Query) (o : Opts) (h : queryFromSql s = .ok (some q)) (ho : o.spaces < 80) :
    (∃ t, q.sql o = .ok t) ↔ q.Printable :=
  (C76_query s q h).elim fun t ht => C56_query_partial q t o ht ho
theorem C76_expression_printed (s : Str) (e : Expr) (o : Opts) (h : expressionFromSql s = .ok e) (ho : o.spaces < 80) :
    (∃ t, e.sql o = .ok t) ↔ e.Printable :=
  (C76_expression s e h).elim fun t ht => C56_printed_partial e t o ht ho

/-- **C76.** `format query` succeeds exactly if the text is read, the tables of the query resolve, and what was read is
printable. -/
theorem C76_format (s : Str) : (∃ t, formatCommand .query s = .ok t) ↔
    ∃ q, queryFromSql s = .ok (some q) ∧ (∃ p, q.resolve .empty = .ok p) ∧ q.Printable := by
  constructor
  · rintro ⟨t, ht⟩
    obtain ⟨q, hq, hp, hs⟩ := (C59_query s t).1 ht
    exact ⟨q, hq, hp, (C76_printed s q _ hq (by decide)).1 ⟨t, hs⟩⟩
  · rintro ⟨q, hq, hp, hs⟩
    obtain ⟨t, ht⟩ := (C76_printed s q { mode := .pretty } hq (by decide)).2 hs
    exact ⟨t, (C59_query s t).2 ⟨q, hq, hp, ht⟩⟩

/-! ## Reached -/

/-- A query with a named query, a window, a sort key and a limit. -/
def readText : Str := c% "WITH w AS (SELECT 1 a) SELECT a, SUM(b) OVER (PARTITION BY c) FROM w WHERE a > 0 ORDER BY a LIMIT 3"

theorem C76_reached : ∃ q t, queryFromSql readText = .ok (some q) ∧ q.sql {} = .ok t ∧
    t = c% "WITH \"w\" AS (SELECT 1 \"a\") SELECT \"a\",SUM(\"b\") OVER (PARTITION BY \"c\" RANGE BETWEEN UNBOUNDED PRECEDING AND CURRENT ROW) FROM \"w\" WHERE \"a\" > 0 ORDER BY \"a\" LIMIT 3" := by
  refine ⟨.mk (.select [col (c% "a"), .agg .sum [col (c% "b")] [] none
      (some (.mk none [] [col (c% "c")] .range (.unbounded .preceding) .current)) false]
    (some (.table { name := c% "w" })) (some (.bin .gt (col (c% "a")) (num 0))) none none false []) none (some 3) [.mk (col (c% "a")) false false]
    [.mk (.query (.mk (.select [.alias (num 1) (c% "a")] none none none none false []) none none [] [])) (c% "w") []], _,
    query_of_parserN 60 (by krfl), rfl, ?_⟩
  decide +kernel

/-- What is not printable is read all the same: the pretty printer never sees it. -/
theorem C76_normalize_read : ∃ q, queryFromSql (c% "SELECT NORMALIZE(a, NFC)") = .ok (some q) ∧ ¬q.Printable ∧
    (∀ o t, q.sql o ≠ .ok t) ∧ ∀ t, formatCommand .query (c% "SELECT NORMALIZE(a, NFC)") ≠ .ok t := by
  have hq : queryFromSql (c% "SELECT NORMALIZE(a, NFC)") = .ok (some (.mk (.select [.normalize (col (c% "a")) (some .nfc)] none none none none
      false []) none none [] [])) := query_of_parserN 60 (by krfl)
  have hn : ¬(Query.mk (.select [.normalize (col (c% "a")) (some .nfc)] none none none none false []) none none [] []).Printable :=
    fun h => h.1.1.1
  refine ⟨_, hq, hn, fun o t h => hn (C56_printed_is_printable _ o t h), fun t ht => ?_⟩
  obtain ⟨q, hq', _, hp⟩ := (C76_format _).1 ⟨t, ht⟩
  rw [hq] at hq'
  cases hq'
  exact hn hp

/-- What a constructor refuses is not read: a union of a number and a string; a time with a precision of 13. -/
theorem C76_refused : (∀ q, queryFromSql (c% "SELECT 1 UNION SELECT 'a'") ≠ .ok q) ∧
    ∀ e, expressionFromSql (c% "CURRENT_TIME(13)") ≠ .ok e := by
  constructor
  · intro q h
    have hx : queryFromSql (c% "SELECT 1 UNION SELECT 'a'") = .error .assertion := query_of_parserN 60 (by krfl)
    rw [hx] at h
    cases h
  · intro e h
    have hx : expressionFromSql (c% "CURRENT_TIME(13)") = .error .assertion := expr_of_parserN 60 (by krfl)
    rw [hx] at h
    cases h

end Treeno.Props
