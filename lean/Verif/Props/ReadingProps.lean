import Verif.Lemmas.ConvMean
import Verif.Spec.TermModel
import Verif.Spec.IntModel
import Verif.Props.ParseProps
import Verif.Lemmas.Krfl
/-!
# C57: reading SQL preserves its meaning
-/
set_option autoImplicit false
namespace Treeno.Props
open Spec

/-- **C57 (expressions).** For every SQL text that `expression_from_sql` accepts, whether printed by treeno or
not: the text has a parse tree, of all its tokens, and if it contains nothing that the visitor is known to
change (`kept`), then the tree that is returned means what the parse tree means, in every model and
environment. -/
theorem C57_expression_partial (s : Str) (e : Expr) (h : expressionFromSql s = .ok e) :
    ∃ c : CE, P (.lv 0) (toks s) = some (c, []) ∧ (c.Wf ∧ (toks s).map canon = c.yield.map canon) ∧
      (c.kept = true → ∀ (M : Model) (env : M.Env), e.mean M env = c.mean M env) := by
  unfold expressionFromSql at h
  split at h
  · next c hp =>
    obtain ⟨a, _, used, b, d⟩ := lv_s P_sound hp
    refine ⟨c, hp, ⟨a, by rw [b, List.append_nil]; exact d⟩, fun hk M env => congrFun (cm_expr c hk e h) env⟩
  · exact absurd h (by simp)

/-- **C57 (queries).** The same for `query_from_sql`; moreover a query, and not `None`, is returned. -/
theorem C57_query_partial (s : Str) (x : Option Query) (h : queryFromSql s = .ok x) :
    ∃ (c : CQ) (rest : List Tok), P .query (toks s) = some (c, rest) ∧ c.Wf ∧
      (c.kept = true → ∃ q, x = some q ∧ ∀ (M : Model) (env : M.Env), q.mean M env = c.mean M env) := by
  unfold queryFromSql at h
  split at h
  · next c rest hp =>
    obtain ⟨a, used, b, d⟩ := query_s P_sound hp
    refine ⟨c, rest, hp, a, fun hk => ?_⟩
    obtain ⟨q, rfl, _⟩ := cm_query (M := termModel) c hk x h
    refine ⟨q, rfl, fun M env => ?_⟩
    obtain ⟨q', hq', hm⟩ := cm_query (M := M) c hk _ h
    cases hq'
    exact congrFun hm env
  · exact absurd h (by simp)

/-- **C57 (equal readings).** Two texts with parse trees of the same meaning are read as trees of the same
meaning; redundant parentheses, the case of keywords, optional words and `ROW` do not matter. -/
theorem C57_same_partial (s s' : Str) (c c' : CE) (e e' : Expr) (hp : P (.lv 0) (toks s) = some (c, [])) (hp' : P (.lv 0) (toks s') = some (c', []))
    (h : expressionFromSql s = .ok e) (h' : expressionFromSql s' = .ok e') (hk : c.kept = true) (hk' : c'.kept = true)
    (M : Model) (hm : c.mean M = c'.mean M) : e.mean M = e'.mean M := by
  have h1 : c.conv = .ok e := by rw [expressionFromSql, hp] at h; exact h
  have h2 : c'.conv = .ok e' := by rw [expressionFromSql, hp'] at h'; exact h'
  rw [cm_expr c hk e h1, cm_expr c' hk' e' h2, hm]

/-! ## The hypotheses are met -/

theorem read_kept {s : Str} {n : Nat} (h : (parserN n (.lv 0) (toks s)).map (fun p => (p.1.kept, p.2)) = some (true, [])) :
    ∃ c, P (.lv 0) (toks s) = some (c, []) ∧ c.kept = true := by
  cases hp : parserN n (.lv 0) (toks s) with
  | none => rw [hp] at h; exact nomatch h
  | some p =>
    rw [hp] at h
    obtain ⟨c, r⟩ := p
    have h : some (c.kept, r) = some (true, []) := h
    injection h with h
    injection h with h1 h2
    subst h2
    exact ⟨c, P_of_parserN hp, h1⟩

theorem C57_expression_reached : ∃ c, P (.lv 0) (toks
    (c% "case when not a in (1, x.b) or \"c d\" not between -2.5 and 3 then array_agg(distinctness order by z desc) filter (where q is not null) over (partition by p rows unbounded preceding) else try_cast('x' as varchar(3)) || lower((row(1, 2)).f) end")) =
      some (c, []) ∧ c.kept = true := read_kept (n := 60) (by krfl)

theorem C57_query_reached : ∃ c : CQ, P .query (toks
    (c% "with w (u) as (select 1) select distinct t.*, count(*) as n from a.b.t tablesample system (10) left join (values 1, 2) as v (k) on t.k = v.k where exists_ group by rollup (a, b) having n > 1 order by 2 nulls first offset 3 rows limit 5")) =
      some (c, []) ∧ c.kept = true := by
  have h : (parserN 60 .query (toks
      (c% "with w (u) as (select 1) select distinct t.*, count(*) as n from a.b.t tablesample system (10) left join (values 1, 2) as v (k) on t.k = v.k where exists_ group by rollup (a, b) having n > 1 order by 2 nulls first offset 3 rows limit 5"))).map
      (fun p => (p.1.kept, p.2)) = some (true, []) := by krfl
  revert h
  generalize toks _ = ts
  intro h
  cases hp : parserN 60 .query ts with
  | none => rw [hp] at h; exact nomatch h
  | some p =>
    rw [hp] at h
    obtain ⟨c, r⟩ := p
    have h : some (c.kept, r) = some (true, []) := h
    injection h with h
    injection h with h1 h2
    subst h2
    exact ⟨c, P_of_parserN hp, h1⟩

/-! ## Where the claim is false

`Misread s a b`: the text `s` means `a` and is read as a tree that means `b`, in the model of terms. -/

def Misread (s : Str) (a b : Term) : Prop :=
  ∃ c e, P (.lv 0) (toks s) = some (c, []) ∧ expressionFromSql s = .ok e ∧ c.mean termModel () = a ∧ e.mean termModel () = b

def MisreadQuery (s : Str) (a b : Term) : Prop :=
  ∃ c q, P .query (toks s) = some (c, []) ∧ queryFromSql s = .ok (some q) ∧ c.mean termModel () = a ∧ q.mean termModel () = b

def okMean : Except Err Expr → Option Term
  | .ok e => some (e.mean termModel ())
  | .error _ => none
def okQueryMean : Except Err (Option Query) → Option Term
  | .ok (some q) => some (q.mean termModel ())
  | _ => none

theorem misread {s : Str} {a b : Term} (n : Nat)
    (h : (parserN n (.lv 0) (toks s)).map (fun p => (p.1.mean termModel (), okMean p.1.conv, p.2)) = some (a, some b, [])) : Misread s a b := by
  cases hp : parserN n (.lv 0) (toks s) with
  | none => rw [hp] at h; exact nomatch h
  | some p =>
    rw [hp] at h
    obtain ⟨c, r⟩ := p
    have h : some (c.mean termModel (), okMean c.conv, r) = some (a, some b, []) := h
    injection h with h
    injection h with h1 h2
    injection h2 with h2 h3
    subst h3
    cases hc : c.conv with
    | error e => rw [hc] at h2; exact nomatch h2
    | ok e =>
      rw [hc] at h2
      exact ⟨c, e, P_of_parserN hp, by rw [expressionFromSql, P_of_parserN hp]; exact hc, h1, Option.some.inj h2⟩

theorem misread_query {s : Str} {a b : Term} (n : Nat)
    (h : (parserN n .query (toks s)).map (fun p => (p.1.mean termModel (), okQueryMean p.1.conv, p.2)) = some (a, some b, [])) :
    MisreadQuery s a b := by
  cases hp : parserN n .query (toks s) with
  | none => rw [hp] at h; exact nomatch h
  | some p =>
    rw [hp] at h
    obtain ⟨c, r⟩ := p
    have h : some (c.mean termModel (), okQueryMean c.conv, r) = some (a, some b, []) := h
    injection h with h
    injection h with h1 h2
    injection h2 with h2 h3
    subst h3
    cases hc : c.conv with
    | error e => rw [hc] at h2; exact nomatch h2
    | ok e =>
      cases e with
      | none => rw [hc] at h2; exact nomatch h2
      | some q =>
        rw [hc] at h2
        exact ⟨c, q, P_of_parserN hp, by rw [queryFromSql, P_of_parserN hp]; exact hc, h1, Option.some.inj h2⟩

private def column (n : Str) : Term := .node (.column none n) []

/-- Doubled quotes stand for one quote, but both are kept. -/
theorem C57_quoted_name_false : Misread (c% "\"a\"\"b\"") (column (c% "a\"b")) (column (c% "a\"\"b")) := misread 60 (by krfl)
theorem C57_quoted_string_false : Misread (c% "'it''s'") (.node (.text (c% "it's")) []) (.node (.text (c% "it''s")) []) :=
  misread 60 (by krfl)
/-- Quotes at the ends of a string are lost altogether. -/
theorem C57_quotes_stripped_false : Misread (c% "'''a'''") (.node (.text (c% "'a'")) []) (.node (.text (c% "a")) []) :=
  misread 60 (by krfl)

/-- A part of a row is read as a column of a table. -/
theorem C57_parentheses_false : Misread (c% "(a).b") (.node (.part (c% "b")) [column (c% "a")]) (.node (.column (some (c% "a")) (c% "b")) []) :=
  misread 60 (by krfl)

/-- DISTINCT is lost. -/
theorem C57_distinct_false : Misread (c% "SUM(DISTINCT a)")
    (.node (.other [c% "DISTINCT", c% "SUM"]) [.node .list [column (c% "a")], .node .list [], .node .nothing [], .node .nothing []])
    (.node (.call (c% "SUM") false) [.node .list [column (c% "a")], .node .list [], .node .nothing [], .node .nothing []]) :=
  misread 60 (by krfl)

/-- The weight and the percentage change places. -/
theorem C57_percentile_false : Misread (c% "APPROX_PERCENTILE(a, b, c)")
    (.node (.call (c% "APPROX_PERCENTILE") false) [.node .list [column (c% "a"), column (c% "b"), column (c% "c")], .node .list [], .node .nothing [], .node .nothing []])
    (.node (.call (c% "APPROX_PERCENTILE") false) [.node .list [column (c% "a"), column (c% "c"), column (c% "b")], .node .list [], .node .nothing [], .node .nothing []]) :=
  misread 60 (by krfl)

/-- A call of a function that is written with quotes is read as the word without them. -/
theorem C57_quoted_word_false : Misread (c% "\"current_user\"()")
    (.node (.call (c% "CURRENT_USER") false) [.node .list [], .node .list [], .node .nothing [], .node .nothing []])
    (.node (.session (c% "CURRENT_USER")) []) :=
  misread 60 (by krfl)

/-- A reference to a named window gets a frame of its own. -/
theorem C57_window_false : Misread (c% "SUM(a) OVER w")
    (.node (.call (c% "SUM") false) [.node .list [column (c% "a")], .node .list [], .node .nothing [], .node (.windowRef (c% "w")) []])
    (.node (.call (c% "SUM") false) [.node .list [column (c% "a")], .node .list [], .node .nothing [],
      .node (.window (some (c% "w")) .range) [.node .list [], .node .list [], .node (.unbounded .preceding) [], .node .currentRow []]]) :=
  misread 60 (by krfl)

/-- Of two minus signs inside of the string one cancels the sign outside; the other is lost as well. -/
theorem C57_interval_false : Misread (c% "INTERVAL - '--1' DAY") (.node (.interval false (c% "-1") (c% "DAY") none) [])
    (.node (.interval false (c% "1") (c% "DAY") none) []) := misread 60 (by krfl)

/-- A negative decimal of 29 digits is rounded. -/
theorem C57_decimal_false : Misread (c% "-1234567890123456789012345678.9") (.dec ⟨true, 12345678901234567890123456789, -1⟩)
    (.dec ⟨true, 1234567890123456789012345679, 0⟩) := misread 60 (by krfl)

private def selectOne (items : List Term) (fr : Term) : Term :=
  .node (.select false) [.node .list items, fr, .node .nothing [], .node .nothing [], .node .nothing [], .node .list []]

/-- FETCH FIRST is dropped. -/
theorem C57_fetch_false : MisreadQuery (c% "SELECT 1 FETCH FIRST 2 ROWS ONLY")
    (.node (.fetch (c% "FIRST") (c% "ROWS") (some (c% "2")) false) [selectOne [.int 1] (.node .nothing [])]) (selectOne [.int 1] (.node .nothing [])) :=
  misread_query 60 (by krfl)

/-- `a.b.*` is read as `b.*`. -/
theorem C57_all_columns_false : MisreadQuery (c% "SELECT a.b.* FROM a.b")
    (selectOne [.node .starOf [.node (.column (some (c% "a")) (c% "b")) []]] (.node (.table none (some (c% "a")) (c% "b")) []))
    (selectOne [.node (.star (some (c% "b"))) []] (.node (.table none (some (c% "a")) (c% "b")) [])) :=
  misread_query 60 (by krfl)

/-- The first part of a name of four parts is dropped. -/
theorem C57_long_name_false : MisreadQuery (c% "TABLE a.b.c.d") (.node (.other [c% "a", c% "b", c% "c", c% "d"]) [])
    (.node (.table (some (c% "b")) (some (c% "c")) (c% "d")) []) := misread_query 60 (by krfl)

/-- A query in double parentheses disappears from the FROM clause. -/
theorem C57_double_parentheses_false : MisreadQuery (c% "SELECT 1 FROM ((SELECT 2))") (selectOne [.int 1] (selectOne [.int 2] (.node .nothing [])))
    (selectOne [.int 1] (.node .nothing [])) := misread_query 60 (by krfl)

/-- A predicate that the visitor has no method for disappears from the WHERE clause. -/
theorem C57_exists_false : MisreadQuery (c% "SELECT 1 WHERE EXISTS (SELECT 2)")
    (.node (.select false) [.node .list [.int 1], .node .nothing [], .node (.other [c% "EXISTS"]) [selectOne [.int 2] (.node .nothing [])],
      .node .nothing [], .node .nothing [], .node .list []])
    (selectOne [.int 1] (.node .nothing [])) := misread_query 60 (by krfl)

/-- The operand of a CASE disappears likewise: the conditions are compared with nothing. -/
theorem C57_case_operand_false : Misread (c% "CASE GROUPING(a) WHEN b THEN 1 END")
    (.node .case [.node (.other [c% "GROUPING"]) [.node (.other [c% "a"]) []], .node .list [.node .branch [column (c% "b"), .int 1]], .node .nothing []])
    (.node .case [.node .nothing [], .node .list [.node .branch [column (c% "b"), .int 1]], .node .nothing []]) := misread 60 (by krfl)

/-- Of two windows with the same name the last is kept, in the place of the first. -/
theorem C57_window_names_false : MisreadQuery (c% "SELECT 1 WINDOW w AS (ORDER BY a), w AS (ORDER BY b)")
    (.node (.select false) [.node .list [.int 1], .node .nothing [], .node .nothing [], .node .nothing [], .node .nothing [], .node .list
      [.node (.named (c% "w")) [.node (.window none .range) [.node .list [.node (.order false false) [column (c% "a")]], .node .list [], .node (.unbounded .preceding) [], .node .currentRow []]],
       .node (.named (c% "w")) [.node (.window none .range) [.node .list [.node (.order false false) [column (c% "b")]], .node .list [], .node (.unbounded .preceding) [], .node .currentRow []]]]])
    (.node (.select false) [.node .list [.int 1], .node .nothing [], .node .nothing [], .node .nothing [], .node .nothing [], .node .list
      [.node (.named (c% "w")) [.node (.window none .range) [.node .list [.node (.order false false) [column (c% "b")]], .node .list [], .node (.unbounded .preceding) [], .node .currentRow []]]]]) :=
  misread_query 60 (by krfl)

/-- The value before AT TIME ZONE disappears: only the interval that names the zone is left. -/
theorem C57_zone_false : Misread (c% "a AT TIME ZONE INTERVAL '5' HOUR")
    (.node (.other [c% "AT TIME ZONE"]) [column (c% "a"), .node (.interval false (c% "5") (c% "HOUR") none) []])
    (.node (.interval false (c% "5") (c% "HOUR") none) []) := misread 60 (by krfl)

/-- Whatever the value is: two texts that are read and name the same zone give the same tree. -/
theorem C57_zone_dropped {s s' : Str} {v v' z : CE} {e e' : Expr} (hs : P (.lv 0) (toks s) = some (.atZone v z, []))
    (hs' : P (.lv 0) (toks s') = some (.atZone v' z, [])) (h : expressionFromSql s = .ok e) (h' : expressionFromSql s' = .ok e') :
    e = e' ∧ ∃ n f t, e = .interval n f t := by
  have k : (CE.atZone v z).conv = .ok e := by rw [expressionFromSql, hs] at h; exact h
  have k' : (CE.atZone v' z).conv = .ok e' := by rw [expressionFromSql, hs'] at h'; exact h'
  rw [CE_conv_atZone] at k k'
  obtain ⟨_, _, k⟩ := bind_ok k
  obtain ⟨_, _, k'⟩ := bind_ok k'
  exact ⟨Except.ok.inj (k.symm.trans k'), zone_inv k⟩

/-- A comparison with ALL, SOME or ANY rows of a query is never read as something else: it is refused. -/
theorem C57_quantified_refused {s : Str} {o k : Tok} {l : CE} {q : CQ} (hs : P (.lv 0) (toks s) = some (.quantified o k l q, [])) (e : Expr) :
    expressionFromSql s ≠ .ok e := by
  intro h
  have h : (CE.quantified o k l q).conv = .ok e := by rw [expressionFromSql, hs] at h; exact h
  rw [CE_conv_quantified] at h
  obtain ⟨_, _, h⟩ := bind_ok h
  exact nomatch h

/-- A binary literal has no visitor method either. -/
theorem C57_binary_false : MisreadQuery (c% "SELECT 1 WHERE X'00'")
    (.node (.select false) [.node .list [.int 1], .node .nothing [], .node (.other [c% "X'00'"]) [], .node .nothing [], .node .nothing [], .node .list []])
    (selectOne [.int 1] (.node .nothing [])) := misread_query 60 (by krfl)

/-- The hypotheses of `C57_zone_dropped` and `C57_quantified_refused` are met; a sign binds weaker than AT, and
in double parentheses the query is the argument of a function. -/
theorem C57_zone_reached :
    (∃ v v' z e e', P (.lv 0) (toks (c% "a AT TIME ZONE INTERVAL '5' HOUR")) = some (.atZone v z, []) ∧
      P (.lv 0) (toks (c% "b[1] at time zone interval '5' HOUR")) = some (.atZone v' z, []) ∧
      expressionFromSql (c% "a AT TIME ZONE INTERVAL '5' HOUR") = .ok e ∧
      expressionFromSql (c% "b[1] at time zone interval '5' HOUR") = .ok e') ∧
    (∃ o v z, P (.lv 0) (toks (c% "-a AT TIME ZONE 'UTC'")) = some (.sign o (.atZone v z), [])) ∧
    (∃ o k l q, P (.lv 0) (toks (c% "a <= ALL (SELECT 1)")) = some (.quantified o k l q, [])) ∧
    (∃ o l n q as ob fl ig w, P (.lv 0) (toks (c% "a <= ANY ((SELECT 1))")) = some (.cmp o l (.call n q as ob fl ig w), [])) := by
  have rd : ∀ {s c}, parserN 60 (.lv 0) (toks s) = some (c, []) → P (.lv 0) (toks s) = some (c, []) := fun h => P_of_parserN h
  let a : CE := .col ⟨.ident, c% "a"⟩
  let one : CE := .num false ⟨.int, c% "1"⟩
  let hours : CE := .interval none (.basic ⟨.str, c% "'5'"⟩) ⟨.kw, c% "HOUR"⟩ none
  let sel : CQ := .mk false [] (.mk (.spec none [.expr one false none] [] none none [] none []) [] none .none)
  have h1 : P (.lv 0) (toks (c% "a AT TIME ZONE INTERVAL '5' HOUR")) = some (.atZone a hours, []) := rd (by krfl)
  have h2 : P (.lv 0) (toks (c% "b[1] at time zone interval '5' HOUR")) = some (.atZone (.subscript (.col ⟨.ident, c% "b"⟩) one) hours, []) :=
    rd (by krfl)
  have e1 : ∃ e, expressionFromSql (c% "a AT TIME ZONE INTERVAL '5' HOUR") = .ok e :=
    ⟨.interval (c% "5") (c% "HOUR") none, by rw [expressionFromSql, h1]; rfl⟩
  have e2 : ∃ e, expressionFromSql (c% "b[1] at time zone interval '5' HOUR") = .ok e :=
    ⟨.interval (c% "5") (c% "HOUR") none, by rw [expressionFromSql, h2]; rfl⟩
  obtain ⟨e, he⟩ := e1
  obtain ⟨e', he'⟩ := e2
  exact ⟨⟨_, _, _, e, e', h1, h2, he, he'⟩,
    ⟨⟨.sym, c% "-"⟩, a, .str (.basic ⟨.str, c% "'UTC'"⟩), rd (by krfl)⟩,
    ⟨⟨.sym, c% "<="⟩, ⟨.kw, c% "ALL"⟩, a, sel, rd (by krfl)⟩,
    ⟨⟨.sym, c% "<="⟩, a, [⟨.kw, c% "ANY"⟩], none, [.sub sel], [], none, none, none, rd (by krfl)⟩⟩

end Treeno.Props
