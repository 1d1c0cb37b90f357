import Verif.Props.RoundTripProps
import Verif.Lemmas.Krfl
/-!
# C13, C15, C27: trees that are not read back

Each theorem is about a tree that the constructors accept.
-/
set_option autoImplicit false
namespace Treeno.Props
open Spec

/-! ## Missing parentheses (C13, C15) -/

/-- `IS DISTINCT FROM` has no entry in the table of precedences: `a + (b IS DISTINCT FROM c)` is printed
without the parentheses and read as `(a + b) IS DISTINCT FROM c`. -/
theorem C15_distinct_regroups :
    let e := Expr.bin .add (col (c% "a")) (.bin .distinct (col (c% "b")) (col (c% "c")))
    let e' := Expr.bin .distinct (.bin .add (col (c% "a")) (col (c% "b"))) (col (c% "c"))
    ∃ s, e.sql {} = .ok s ∧ expressionFromSql s = .ok e' := by
  refine ⟨_, rfl, ?_⟩
  exact C13_exact_partial (Expr.bin .distinct (.bin .add (col (c% "a")) (col (c% "b"))) (col (c% "c"))) {} _ .boolean
    (by decide +kernel) (by decide +kernel) rfl rfl rfl

/-- The value of a subscript is never put in parentheses: `(a + b)[1]` is read as `a + (b[1])`. -/
theorem C15_subscript_regroups :
    let e := Expr.subscript (.bin .add (col (c% "a")) (col (c% "b"))) (num 1)
    let e' := Expr.bin .add (col (c% "a")) (.subscript (col (c% "b")) (num 1))
    e.check = .ok .unknown ∧ ∃ s, e.sql {} = .ok s ∧ expressionFromSql s = .ok e' := by
  refine ⟨rfl, _, rfl, ?_⟩
  exact C13_exact_partial (Expr.bin .add (col (c% "a")) (.subscript (col (c% "b")) (num 1))) {} _ .unknown
    (by decide +kernel) (by decide +kernel) rfl rfl rfl

/-- A lambda expression is never put in parentheses: `(x -> x) OR a` is read as `x -> (x OR a)`. -/
theorem C15_lambda_regroups :
    let e := Expr.bin .or (.lam [c% "x"] (.var (c% "x"))) (col (c% "a"))
    let e' := Expr.lam [c% "x"] (.bin .or (.var (c% "x")) (col (c% "a")))
    e.check = .ok .boolean ∧ ∃ s, e.sql {} = .ok s ∧ expressionFromSql s = .ok e' := by
  refine ⟨rfl, _, rfl, ?_⟩
  exact C13_exact_partial (Expr.lam [c% "x"] (.bin .or (.var (c% "x")) (col (c% "a")))) {} _ .unknown
    (by decide +kernel) (by decide +kernel) rfl rfl rfl

theorem rest_error {s : Str} {n : Nat} {c : CE} {t : Tok} {r : List Tok} (h : parserN n (.lv 0) (toks s) = some (c, t :: r)) :
    expressionFromSql s = .error .syntax := by
  rw [expressionFromSql, P_of_parserN h]

/-- The left operand of a comparison may be a comparison, which the printer leaves without parentheses and
the grammar does not allow: `(a = b) = c`. -/
theorem C15_comparison_unreadable :
    let e := Expr.bin .eq (.bin .eq (col (c% "a")) (col (c% "b"))) (col (c% "c"))
    e.check = .ok .boolean ∧ ∃ s, e.sql {} = .ok s ∧ expressionFromSql s = .error .syntax :=
  ⟨rfl, _, rfl, rest_error (n := 40) rfl⟩

/-- The same with `(a = b) IS NULL` … -/
theorem C15_predicate_unreadable :
    let e := Expr.isNull (.bin .eq (col (c% "a")) (col (c% "b")))
    e.check = .ok .boolean ∧ ∃ s, e.sql {} = .ok s ∧ expressionFromSql s = .error .syntax :=
  ⟨rfl, _, rfl, rest_error (n := 40) rfl⟩

/-- … and with `a = (b IS DISTINCT FROM c)`. -/
theorem C15_distinct_unreadable :
    let e := Expr.bin .eq (col (c% "a")) (.bin .distinct (col (c% "b")) (col (c% "c")))
    e.check = .ok .boolean ∧ ∃ s, e.sql {} = .ok s ∧ expressionFromSql s = .error .syntax :=
  ⟨rfl, _, rfl, rest_error (n := 40) rfl⟩

/-! ## Other expressions (C13) -/

/-- `-(-x)` and `-(-y)` are printed as comments: their texts have the same (no) tokens, so at most one of
them could be read back. -/
theorem C13_comment_false :
    let e := fun n => Expr.un .neg (.un .neg (col n))
    (e (c% "x")).check = .ok .unknown ∧ ∃ s s', (e (c% "x")).sql {} = .ok s ∧ (e (c% "y")).sql {} = .ok s' ∧
      expressionFromSql s = expressionFromSql s' := by
  refine ⟨rfl, _, _, rfl, rfl, ?_⟩
  have : toks (c% "--\"x\"") = toks (c% "--\"y\"") := by decide +kernel
  show expressionFromSql (c% "--\"x\"") = expressionFromSql (c% "--\"y\"")
  unfold expressionFromSql
  rw [this]

/-- An interval is printed without the quotes around its value. -/
theorem C13_interval_false :
    let e := Expr.interval (c% "1") (c% "DAY") none
    e.check = .ok .dayToSecond ∧ ∃ s, e.sql {} = .ok s ∧ expressionFromSql s = .error .syntax :=
  ⟨rfl, _, rfl, rest_error (n := 40) rfl⟩

/-- A row with a single value is printed as a value in parentheses, and read as the value. -/
theorem C13_row_of_one_false :
    let e := Expr.row [col (c% "a")]
    e.check = .ok (.row [.unknown]) ∧ ∃ s, e.sql {} = .ok s ∧ expressionFromSql s = .ok (col (c% "a")) := by
  refine ⟨rfl, _, rfl, ?_⟩
  have h : parserN 40 (.lv 0) (toks (c% "(\"a\")")) = some (.paren (.col ⟨.quoted, c% "\"a\""⟩), []) := rfl
  show expressionFromSql (c% "(\"a\")") = _
  rw [expressionFromSql, P_of_parserN h]
  rfl

/-- A decimal with exponent 0 is printed as an integer, and read as one. -/
theorem C13_decimal_without_point_false :
    let e := litOf (some (.dec ⟨false, 5, 0⟩))
    e.check = .ok (.decimal 1 0) ∧ ∃ s, e.sql {} = .ok s ∧ expressionFromSql s = .ok (num 5) := by
  refine ⟨rfl, _, rfl, ?_⟩
  exact C13_exact_partial (num 5) {} _ _ (by decide +kernel) (by decide +kernel) rfl rfl rfl

/-- A variable outside of a lambda expression is read as a column. -/
theorem C13_variable_false : (Expr.var (c% "x")).check = .ok .unknown ∧ ∃ s, (Expr.var (c% "x")).sql {} = .ok s ∧
    expressionFromSql s = .ok (col (c% "x")) := by
  refine ⟨rfl, _, rfl, ?_⟩
  exact C13_round_trip_partial (.var (c% "x")) {} _ .unknown (by decide +kernel) (by decide +kernel) rfl rfl

/-- `IF(c, a, 1)` with a column `a` of a known type prints, but cannot be read: the type of `a` is not known
any more. -/
theorem C13_types_forgotten :
    let e := Expr.func .if_ [col (c% "c"), .field (c% "a") none (.simple .integer), num 1]
    e.check = .ok (.simple .integer) ∧ ∃ s, e.sql {} = .ok s ∧ ∃ x, expressionFromSql s = .error x := by
  refine ⟨rfl, _, rfl, ?_⟩
  have h := C53_expression_complete (c% "IF(\"c\",\"a\",1)")
    ((Expr.func .if_ [col (c% "c"), .field (c% "a") none (.simple .integer), num 1]).cst false)
    (pl_expr _ false (by decide +kernel) (by decide +kernel) false) (by decide +kernel)
  exact ⟨_, h⟩

/-- A list that consists of one query is printed like the query itself. -/
theorem C13_list_of_query_false :
    let q := selectOf [col (c% "b")] (.table { name := c% "t" })
    (Expr.inList (col (c% "a")) [.query q]).check = .ok .boolean ∧
    (Expr.inList (col (c% "a")) [.query q]).sql {} = (Expr.inQuery (col (c% "a")) q).sql {} ∧
    ∃ s, (Expr.inList (col (c% "a")) [.query q]).sql {} = .ok s ∧ expressionFromSql s = .ok (.inQuery (col (c% "a")) q) := by
  refine ⟨rfl, rfl, _, rfl, ?_⟩
  exact C13_exact_partial (.inQuery (col (c% "a")) (selectOf [col (c% "b")] (.table { name := c% "t" }))) {} _ .boolean
    (by decide +kernel) (by decide +kernel) rfl rfl rfl

/-! ## Queries (C27) -/

theorem query_of_parserN {s : Str} {x : Except Err (Option Query)} (n : Nat)
    (h : (parserN n .query (toks s)).map (fun p => p.1.conv) = some x) : queryFromSql s = x := by
  cases hp : parserN n .query (toks s) with
  | none => rw [hp] at h; exact nomatch h
  | some p =>
    rw [hp] at h
    rw [queryFromSql, P_of_parserN (x := (p.1, p.2)) hp]
    exact Option.some.inj h

theorem pl_noWith {q : CQ} (h : q.Plain) : q.noWith.Plain := by
  cases q with
  | mk rc w b => rw [CQ_Plain_mk] at h; exact h.2.2

/-- The parse tree of the text of a set operation. -/
theorem cst_set (k : SetKind) (l r : Query) (d : Bool) (off lim : Option Int) (ob : List Ord) (w : List Named) :
    (Query.mk (.set k l r d) off lim ob w).cst =
      .mk false [] (.mk (.set (kwT k.text) (some (kwT (quantText d))) (.sub l.cst.noWith) (.sub r.cst.noWith)) [] none .none) := rfl

theorem pl_combined {q : Query} (h : Combined q) : q.Tidy → q.cst.Plain := by
  induction h with
  | fits h => exact fun ht => pl_query _ ht h
  | set _ _ ihl ihr =>
    intro ht
    rw [Query_Tidy_mk, QBody_Tidy_set] at ht
    rw [cst_set, CQ_Plain_mk, CQN_Plain_mk, CQT_Plain_set, CQT_Plain_sub, CQT_Plain_sub]
    refine ⟨(by exact nofun), trivial, ⟨?_, ?_, pl_noWith (ihl ht.1.1), pl_noWith (ihr ht.1.2.1), ?_⟩, trivial, (by exact nofun), trivial⟩
    · rename_i k _ _ _ _ _ _ _ _ _
      cases k <;> exact List.mem_map.mpr ⟨_, by decide +kernel, rfl⟩
    · rintro t h
      cases h
      rename_i d _ _ _ _ _ _
      cases d <;> exact List.mem_map.mpr ⟨_, by decide +kernel, rfl⟩
    · split
      · exact ⟨Nat.le_succ 1, Nat.le_refl 2⟩
      · exact Nat.le_succ 1

/-- **C27.** No printed set operation is read back: the operands of the text are in parentheses, for which
`ConvertVisitor` has no method, whatever the operands are and however deeply set operations are nested in
them. -/
theorem C27_set_operations_refused (k : SetKind) (l r : Query) (d : Bool) (off lim : Option Int) (ob : List Ord) (w : List Named)
    (o : Opts) (s : Str) (ht : (Query.mk (.set k l r d) off lim ob w).Tidy) (hl : Combined l) (hr : Combined r)
    (hs : (Query.mk (.set k l r d) off lim ob w).sql o = .ok s) : ∀ x, queryFromSql s ≠ .ok x := by
  intro x hx
  rw [C53_query_complete s _ (pl_combined (.set hl hr) ht) (toks_query ht hs), cst_set, CQ_conv_mk] at hx
  obtain ⟨_, h1, -⟩ := bind_ok hx
  rw [CQN_conv_mk] at h1
  obtain ⟨_, h2, -⟩ := bind_ok h1
  rw [CQT_conv_set] at h2
  obtain ⟨a, ha, h2⟩ := bind_ok h2
  obtain ⟨b, -, h2⟩ := bind_ok h2
  obtain ⟨_, -, h2⟩ := bind_ok h2
  obtain ⟨_, -, h2⟩ := bind_ok h2
  obtain ⟨a', h3, -⟩ := bind_ok h2
  rw [CQT_conv_sub] at ha
  obtain ⟨_, -, ha⟩ := bind_ok ha
  cases ha
  exact nomatch h3

/-- A query without WITH that is read gives its body a value. -/
theorem conv_noWith {q : CQ} {x : Option Query} (h : q.conv = .ok x) : ∃ y, q.noWith.conv = .ok y := by
  cases q with
  | mk rc w b =>
    rw [CQ_conv_mk] at h
    obtain ⟨y, hy, -⟩ := bind_ok h
    exact ⟨y, hy⟩

/-- **C27.** The text of a union is refused with an `AttributeError`. -/
theorem C27_union_refused (l r : Query) (d : Bool) (off lim : Option Int) (ob : List Ord) (w : List Named)
    (o : Opts) (s : Str) (tl tr : Ty) (ht : (Query.mk (.set .union l r d) off lim ob w).Tidy) (hl : l.Fits) (hr : r.Fits)
    (hcl : l.reread.check = .ok tl) (hcr : r.reread.check = .ok tr)
    (hs : (Query.mk (.set .union l r d) off lim ob w).sql o = .ok s) : queryFromSql s = .error .attributeError := by
  rw [C53_query_complete s _ (pl_combined (.set (.fits hl) (.fits hr)) ht) (toks_query ht hs), cst_set, CQ_conv_mk, CQN_conv_mk,
    CQT_conv_set, CQT_conv_sub, CQT_conv_sub]
  rw [Query_Tidy_mk, QBody_Tidy_set] at ht
  obtain ⟨_, h1⟩ := conv_noWith (cv_query l ht.1.1 hl tl hcl)
  obtain ⟨_, h2⟩ := conv_noWith (cv_query r ht.1.2.1 hr tr hcr)
  rw [h1, h2]
  cases d <;> rfl

/-- The hypotheses of both theorems are met. -/
theorem C27_union_refused_reached :
    let q := Query.mk (.set .union (selectOf [num 1] (.table { name := c% "t" })) (selectOf [num 2] (.table { name := c% "u" })) true) none none [] []
    q.Tidy ∧ Combined q ∧ ∃ s, q.sql {} = .ok s ∧ queryFromSql s = .error .attributeError := by
  have hl : (selectOf [num 1] (.table { name := c% "t" })).Fits := by decide +kernel
  have hr : (selectOf [num 2] (.table { name := c% "u" })).Fits := by decide +kernel
  refine ⟨by decide +kernel, .set (.fits hl) (.fits hr), _, rfl, ?_⟩
  exact C27_union_refused _ _ true none none [] [] {} _ _ _ (by decide +kernel) hl hr rfl rfl rfl

/-- The printed operands of a set operation are in parentheses, for which `ConvertVisitor` has no method: a
printed UNION cannot be read. -/
theorem C27_set_operation_false :
    let q := Query.mk (.set .union (selectOf [num 1] (.table { name := c% "t" })) (selectOf [num 2] (.table { name := c% "u" })) true) none none [] []
    q.check = .ok (.simple .integer) ∧ ∃ s, q.sql {} = .ok s ∧ queryFromSql s = .error .attributeError :=
  ⟨rfl, _, rfl, query_of_parserN 60 (by krfl)⟩

/-- A table in two pairs of parentheses disappears. -/
theorem C27_nested_parentheses_false :
    queryFromSql (c% "SELECT 1 FROM ((SELECT 2))") = .ok (some (.mk (.select [num 1] none none none none false []) none none [] [])) :=
  query_of_parserN 60 (by krfl)

/-- A join under an alias is printed without parentheses: the alias goes to the last table. -/
theorem C27_aliased_join_false :
    let j := Rel.join (.table { name := c% "t" }) (.table { name := c% "u" }) .cross false none
    let q := selectOf [num 1] (.aliased (.mk j (c% "a") []))
    let q' := selectOf [num 1] (.join (.table { name := c% "t" }) (.aliased (.mk (.table { name := c% "u" }) (c% "a") [])) .cross false none)
    (∃ t, q.check = .ok t) ∧ ∃ s, q.sql {} = .ok s ∧ queryFromSql s = .ok (some q') := by
  refine ⟨⟨_, rfl⟩, _, rfl, ?_⟩
  exact C27_exact_partial (selectOf [num 1] (.join (.table { name := c% "t" }) (.aliased (.mk (.table { name := c% "u" }) (c% "a") [])) .cross false none))
    {} _ _ (by decide +kernel) (by decide +kernel) rfl rfl rfl

/-- FETCH FIRST is read and forgotten. -/
theorem C27_fetch_first_dropped :
    queryFromSql (c% "SELECT a FROM t FETCH FIRST 5 ROWS ONLY") = .ok (some (selectOf [col (c% "a")] (.table { name := c% "t" }))) :=
  query_of_parserN 60 (by krfl)

/-- COUNT(DISTINCT x) loses its DISTINCT. -/
theorem C27_distinct_dropped : expressionFromSql (c% "COUNT(DISTINCT x)") = .ok (.agg .count [col (c% "x")] [] none none false) := by
  have h : ∃ c, parserN 60 (.lv 0) (toks (c% "COUNT(DISTINCT x)")) = some (c, []) ∧ c.conv = .ok (.agg .count [col (c% "x")] [] none none false) :=
    ⟨_, rfl, rfl⟩
  obtain ⟨c, h, hc⟩ := h
  rw [expressionFromSql, P_of_parserN h]
  exact hc

/-- Text behind the query is ignored. -/
theorem C27_trailing_text_ignored :
    queryFromSql (c% "SELECT a FROM t ) ; DROP TABLE t") = .ok (some (selectOf [col (c% "a")] (.table { name := c% "t" }))) :=
  query_of_parserN 60 (by krfl)

end Treeno.Props
