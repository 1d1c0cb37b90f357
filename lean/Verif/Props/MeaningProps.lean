import Verif.Lemmas.RereadMean
import Verif.Lemmas.DecRows
import Verif.Lemmas.Krfl
import Verif.Props.RoundTripProps
import Verif.Spec.IntModel
import Verif.Spec.Negation
/-!
# C14, C26: meaning

The meaning of trees is in Spec/Meaning.lean, the meaning of parse trees, that is of texts, in
Spec/SqlMeaning.lean; both are relative to an arbitrary `Model`.
-/
set_option autoImplicit false
namespace Treeno.Props
open Spec

/-! ## C14 -/

/-- **C14.** Evaluating the expression obtained by printing and reading again gives what evaluating the
original tree gives, in every model and every environment.  Missing: trees that are not `Tidy`, do not `Fit`
or have a LIMIT 0; the claim is false for some of them (below). -/
theorem C14_round_trip_partial (M : Model) (e : Expr) (o : Opts) (s : Str) (t : Ty) (ht : e.Tidy false) (hf : e.Fits)
    (hr : e.Rows) (hc : e.reread.check = .ok t) (hs : e.sql o = .ok s) :
    ∃ e', expressionFromSql s = .ok e' ∧ ∀ env, e'.mean M env = e.mean M env :=
  ⟨e.reread, C13_round_trip_partial e o s t ht hf hc hs, fun env => congrFun (rm_Expr e hr) env⟩

/-- **C14 (queries).** -/
theorem C14_queries_partial (M : Model) (q : Query) (o : Opts) (s : Str) (t : Ty) (ht : q.Tidy) (hf : q.Fits)
    (hr : q.Rows) (hc : q.reread.check = .ok t) (hs : q.sql o = .ok s) :
    ∃ q', queryFromSql s = .ok (some q') ∧ ∀ env, q'.mean M env = q.mean M env :=
  ⟨q.reread, C27_round_trip_partial q o s t ht hf hc hs, fun env => congrFun (rm_Query q hr) env⟩

/-- **C14 (texts).** The printed text itself, read by the grammar, means what the tree means: nothing about
the visitor that builds trees is used here. -/
theorem C14_text_partial (M : Model) (e : Expr) (o : Opts) (s : Str) (ht : e.Tidy false) (hf : e.Fits) (hr : e.Rows)
    (hs : e.sql o = .ok s) : ∃ c, P (.lv 0) (toks s) = some (c, []) ∧ ∀ env, c.mean M env = e.mean M env := by
  refine ⟨e.cst false, ?_, fun env => ?_⟩
  · have h := (CE.good _ (pl_expr e false ht hf false)).full 0 (Nat.zero_le _) [] trivial
    rw [List.append_nil] at h
    rw [toks_expr ht hs]
    exact h
  · exact congrFun (mkid ht (mn_expr e false ht hf hr false nofun)) env

/-- **C14 (texts of queries).** -/
theorem C14_query_text_partial (M : Model) (q : Query) (o : Opts) (s : Str) (ht : q.Tidy) (hf : q.Fits) (hr : q.Rows)
    (hs : q.sql o = .ok s) : ∃ c, P .query (toks s) = some (c, []) ∧ ∀ env, c.mean M env = q.mean M env := by
  refine ⟨q.cst, ?_, fun env => congrFun (mn_query q ht hf hr) env⟩
  have h := CQ.good q.cst (pl_query q ht hf) [] Hd.nil
  rw [List.append_nil] at h
  rw [toks_query ht hs]
  exact h

theorem bigExpr_rows : bigExpr.Rows := by decide +kernel
theorem bigQuery_rows : bigQuery.Rows := by decide +kernel

/-- The hypotheses are met by a large expression and a large query, in both modes. -/
theorem C14_reached (M : Model) : ∃ s s', bigExpr.sql {} = .ok s ∧ bigExpr.sql { mode := .pretty } = .ok s' ∧ s ≠ s' ∧
    (∃ c, P (.lv 0) (toks s) = some (c, []) ∧ ∀ env, c.mean M env = bigExpr.mean M env) ∧
    (∃ c, P (.lv 0) (toks s') = some (c, []) ∧ ∀ env, c.mean M env = bigExpr.mean M env) := by
  obtain ⟨s, s', h, h', hne⟩ := bigExpr_text
  exact ⟨s, s', h, h', hne, C14_text_partial M _ _ _ bigExpr_tidy bigExpr_fits bigExpr_rows h,
    C14_text_partial M _ _ _ bigExpr_tidy bigExpr_fits bigExpr_rows h'⟩

theorem C14_query_reached (M : Model) : ∃ s c, bigQuery.sql { mode := .pretty } = .ok s ∧ P .query (toks s) = some (c, []) ∧
    ∀ env, c.mean M env = bigQuery.mean M env := by
  obtain ⟨s, hs⟩ : ∃ s, bigQuery.sql { mode := .pretty } = .ok s := ⟨_, rfl⟩
  obtain ⟨c, hc, h⟩ := C14_query_text_partial M _ _ _ bigQuery_tidy bigQuery_fits bigQuery_rows hs
  exact ⟨s, c, hs, hc, h⟩

/-- The meaning is not trivial: `NOT (a IN (1, b)) OR a + 1 = 3` where `b` is NULL depends on `a`. -/
theorem C14_meaning_example :
    let e := Expr.bin .or (.not (.inList (col (c% "a")) [num 1, col (c% "b")])) (.bin .eq (.bin .add (col (c% "a")) (num 1)) (num 3))
    let at_ := fun n : Int => e.mean intModel fun _ x => if x = c% "a" then .int n else .null
    at_ 1 = .bool false ∧ at_ 2 = .bool true ∧ at_ 5 = .null := by
  refine ⟨rfl, rfl, rfl⟩

/-! ### Where the claim is false -/

/-- Quotes in strings are not doubled: the string `a' = 'b` comes back as a comparison of two strings, which
is false. -/
theorem C14_quote_false :
    let e := Expr.lit (some (.str (c% "a' = 'b"))) (.varchar (some 7))
    let e' := Expr.bin .eq (text (c% "a")) (text (c% "b"))
    e.check = .ok (.varchar (some 7)) ∧ ∃ s, e.sql {} = .ok s ∧ expressionFromSql s = .ok e' ∧
      ∀ env, e.mean intModel env = .text (c% "a' = 'b") ∧ e'.mean intModel env = .bool false := by
  refine ⟨rfl, _, rfl, ?_, fun env => ⟨rfl, rfl⟩⟩
  exact C13_exact_partial (Expr.bin .eq (text (c% "a")) (text (c% "b"))) {} _ .boolean
    (by decide +kernel) (by decide +kernel) rfl rfl rfl

/-- Missing parentheses: `a + (b IS DISTINCT FROM c)` comes back as `(a + b) IS DISTINCT FROM c`. -/
theorem C14_distinct_false :
    let e := Expr.bin .add (col (c% "a")) (.bin .distinct (col (c% "b")) (col (c% "c")))
    let e' := Expr.bin .distinct (.bin .add (col (c% "a")) (col (c% "b"))) (col (c% "c"))
    ∃ s, e.sql {} = .ok s ∧ expressionFromSql s = .ok e' ∧
      ∃ env, e.mean intModel env = .null ∧ e'.mean intModel env = .bool false := by
  refine ⟨_, rfl, ?_, fun _ _ => .null, rfl, rfl⟩
  exact C13_exact_partial (Expr.bin .distinct (.bin .add (col (c% "a")) (col (c% "b"))) (col (c% "c"))) {} _ .boolean
    (by decide +kernel) (by decide +kernel) rfl rfl rfl

/-- LIMIT 0 is lost, for every query. -/
theorem C14_limit_zero_false (b : QBody) (off : Option Int) (ob : List Ord) (o : Opts) :
    let q := Query.mk b off (some 0) ob []
    let q' := Query.mk b off none ob []
    q.sql o = q'.sql o ∧ ∀ M : Model, q.mean M = M.op (.limit 0) [q'.mean M] := by
  refine ⟨?_, fun M => ?_⟩
  · show Query.sql o _ = Query.sql o _
    rw [Query_sql_mk, Query_sql_mk]; rfl
  · rw [Query_mean_mk, Query_mean_mk]; rfl

/-! ## C26 -/

/-- **C26.** The text of a negated predicate, printed in either mode, reads as an expression that denotes the
three-valued negation of the predicate, in every model and every environment: `v` may be any of IS NULL,
LIKE, IN, BETWEEN, IS DISTINCT FROM, = and <>.  Missing: operands that are not `Tidy` or do not `Fit`; for
those see the theorems on the texts below. -/
theorem C26_denotes_partial (M : Model) (v : Expr) (o : Opts) (s : Str) (ht : v.Tidy false) (hf : v.Fits) (hr : v.Rows)
    (hn : v.negatable = true) (hs : (Expr.not v).sql o = .ok s) :
    ∃ c, P (.lv 0) (toks s) = some (c, []) ∧ ∀ env, M.truth (c.mean M env) = not3 (M.truth (v.mean M env)) := by
  have ht' : (Expr.not v).Tidy false := by rw [Expr_Tidy_not]; exact ht
  have hf' : (Expr.not v).Fits := by
    rw [Expr_Fits_not]
    exact ⟨hf, fun h => by rw [hn] at h; exact nomatch h⟩
  have hr' : (Expr.not v).Rows := by rw [Expr_Rows_not]; exact hr
  obtain ⟨c, hc, h⟩ := C14_text_partial M _ o s ht' hf' hr' hs
  refine ⟨c, hc, fun env => ?_⟩
  rw [h env, Expr_mean_not]
  exact M.truth_ofTruth _

/-- The seven predicates. -/
theorem C26_predicates (v : Expr) : v.negatable = true ↔
    (∃ a, v = .isNull a) ∨ (∃ a p e, v = .like a p e) ∨ (∃ a es, v = .inList a es) ∨ (∃ a q, v = .inQuery a q) ∨
    (∃ a l u, v = .between a l u) ∨ ∃ op a b, v = .bin op a b ∧ (op = .distinct ∨ op = .eq ∨ op = .ne) := by
  constructor
  · intro h
    cases v
    case isNull a => exact .inl ⟨a, rfl⟩
    case like a p e => exact .inr (.inl ⟨a, p, e, rfl⟩)
    case inList a es => exact .inr (.inr (.inl ⟨a, es, rfl⟩))
    case inQuery a q => exact .inr (.inr (.inr (.inl ⟨a, q, rfl⟩)))
    case between a l u => exact .inr (.inr (.inr (.inr (.inl ⟨a, l, u, rfl⟩))))
    case bin op a b =>
      refine .inr (.inr (.inr (.inr (.inr ⟨op, a, b, rfl, ?_⟩))))
      cases op <;> first | exact .inl rfl | exact .inr (.inl rfl) | exact .inr (.inr rfl) | exact nomatch h
    all_goals exact nomatch h
  · rintro (⟨a, rfl⟩ | ⟨a, p, e, rfl⟩ | ⟨a, es, rfl⟩ | ⟨a, q, rfl⟩ | ⟨a, l, u, rfl⟩ | ⟨op, a, b, rfl, h⟩)
    all_goals first | rfl | (rcases h with rfl | rfl | rfl <;> rfl)

/-- Operands of a predicate. -/
theorem operand_text {cur : Option Nat} {left : Bool} {v : Expr} {o : Opts} {a : Str}
    (h : pemdas cur v.prec left (v.sqlN false o) (v.sqlN false dfltOpts) = .ok a) : Operand v o a := by
  rw [pemdas_eq] at h
  cases hn : needsParen cur v.prec left with
  | true =>
    rw [hn, if_pos rfl] at h
    cases hd : v.sqlN false dfltOpts with
    | error e => rw [hd] at h; exact nomatch h
    | ok d =>
      rw [hd] at h
      exact .inr ⟨d, hd, (Except.ok.inj h).symm⟩
  | false =>
    rw [hn, if_neg nofun] at h
    exact .inl h

theorem negated_text {v : Expr} {o : Opts} {neg : Bool} (hn : v.negatable = true) :
    (Expr.not v).sqlN neg o = v.sqlN true o := by
  rw [Expr_sqlN_not, if_pos hn]

/-- **C26 (IS NOT NULL).** For every operand and all options: the negation is printed with NOT in its place,
and differs from the predicate in nothing else. -/
theorem C26_isnull_text (v : Expr) (o : Opts) (s : Str) (h : (Expr.not (.isNull v)).sql o = .ok s) :
    ∃ a, Operand v o a ∧ s = a ++ c% " IS NOT NULL" ∧ (Expr.isNull v).sql o = .ok (a ++ c% " IS NULL") := by
  unfold Expr.sql at h ⊢
  rw [negated_text rfl, Expr_sqlN_isNull] at h
  obtain ⟨a, ha, h⟩ := bind_ok h
  refine ⟨a, operand_text ha, (Except.ok.inj h).symm, ?_⟩
  rw [Expr_sqlN_isNull]
  exact ebind ha rfl

/-- **C26 (NOT BETWEEN).** -/
theorem C26_between_text (v l u : Expr) (o : Opts) (s : Str) (h : (Expr.not (.between v l u)).sql o = .ok s) :
    ∃ a b c, Operand v o a ∧ Operand l o b ∧ Operand u o c ∧ s = a ++ c% " NOT BETWEEN " ++ b ++ c% " AND " ++ c ∧
      (Expr.between v l u).sql o = .ok (a ++ c% " BETWEEN " ++ b ++ c% " AND " ++ c) := by
  unfold Expr.sql at h ⊢
  rw [negated_text rfl, Expr_sqlN_between] at h
  obtain ⟨a, ha, h⟩ := bind_ok h
  obtain ⟨b, hb, h⟩ := bind_ok h
  obtain ⟨c, hc, h⟩ := bind_ok h
  refine ⟨a, b, c, operand_text ha, operand_text hb, operand_text hc, ?_, ?_⟩
  · rw [← Except.ok.inj h]; simp [notText]
  · rw [Expr_sqlN_between]
    refine ebind ha (ebind hb (ebind hc ?_))
    simp [notText]

/-- **C26 (NOT IN).** -/
theorem C26_in_text (v : Expr) (es : List Expr) (o : Opts) (s : Str) (h : (Expr.not (.inList v es)).sql o = .ok s) :
    ∃ a b, Operand v o a ∧ s = a ++ c% " NOT IN (" ++ b ++ c% ")" ∧
      (Expr.inList v es).sql o = .ok (a ++ c% " IN (" ++ b ++ c% ")") := by
  unfold Expr.sql at h ⊢
  rw [negated_text rfl, Expr_sqlN_inList] at h
  obtain ⟨xs, hx, h⟩ := bind_ok h
  obtain ⟨b, hb, h⟩ := bind_ok h
  obtain ⟨a, ha, h⟩ := bind_ok h
  refine ⟨a, b, operand_text ha, ?_, ?_⟩
  · rw [← Except.ok.inj h]; simp [notText]
  · rw [Expr_sqlN_inList]
    refine ebind hx (ebind hb (ebind ha ?_))
    simp [notText]

/-- **C26 (NOT IN with a query).** -/
theorem C26_in_query_text (v : Expr) (q : Query) (o : Opts) (s : Str) (h : (Expr.not (.inQuery v q)).sql o = .ok s) :
    ∃ a b, Operand v o a ∧ q.sql o = .ok b ∧ s = a ++ c% " NOT IN (" ++ b ++ c% ")" ∧
      (Expr.inQuery v q).sql o = .ok (a ++ c% " IN (" ++ b ++ c% ")") := by
  unfold Expr.sql at h ⊢
  rw [negated_text rfl, Expr_sqlN_inQuery] at h
  obtain ⟨a, ha, h⟩ := bind_ok h
  obtain ⟨b, hb, h⟩ := bind_ok h
  refine ⟨a, b, operand_text ha, hb, ?_, ?_⟩
  · rw [← Except.ok.inj h]; simp [notText]
  · rw [Expr_sqlN_inQuery]
    refine ebind ha (ebind hb ?_)
    simp [notText]

/-- **C26 (NOT LIKE).** -/
theorem C26_like_text (v p : Expr) (e : Option Expr) (o : Opts) (s : Str) (h : (Expr.not (.like v p e)).sql o = .ok s) :
    ∃ a b x, Operand v o a ∧ Operand p o b ∧ s = a ++ c% " NOT LIKE " ++ b ++ x ∧
      (Expr.like v p e).sql o = .ok (a ++ c% " LIKE " ++ b ++ x) := by
  unfold Expr.sql at h ⊢
  rw [negated_text rfl, Expr_sqlN_like] at h
  obtain ⟨a, ha, h⟩ := bind_ok h
  obtain ⟨b, hb, h⟩ := bind_ok h
  obtain ⟨c, hc, h⟩ := bind_ok h
  refine ⟨a, b, optText (c% " ESCAPE ") c, operand_text ha, operand_text hb, ?_, ?_⟩
  · rw [← Except.ok.inj h]; simp [notText]
  · rw [Expr_sqlN_like]
    refine ebind ha (ebind hb (ebind hc ?_))
    simp [notText]

/-- **C26 (IS NOT DISTINCT FROM).** -/
theorem C26_distinct_text (l r : Expr) (o : Opts) (s : Str) (h : (Expr.not (.bin .distinct l r)).sql o = .ok s) :
    ∃ a b, Operand l o a ∧ Operand r o b ∧ s = a ++ c% " IS NOT DISTINCT FROM " ++ b ∧
      (Expr.bin .distinct l r).sql o = .ok (a ++ c% " IS DISTINCT FROM " ++ b) := by
  unfold Expr.sql at h ⊢
  rw [negated_text rfl, Expr_sqlN_bin] at h
  obtain ⟨a, ha, h⟩ := bind_ok h
  obtain ⟨b, hb, h⟩ := bind_ok h
  refine ⟨a, b, operand_text ha, operand_text hb, (Except.ok.inj h).symm, ?_⟩
  rw [Expr_sqlN_bin]
  exact ebind ha (ebind hb rfl)

/-- **C26 (= becomes <>).** -/
theorem C26_eq_text (l r : Expr) (o : Opts) (s : Str) (h : (Expr.not (.bin .eq l r)).sql o = .ok s) :
    ∃ a b, Operand l o a ∧ Operand r o b ∧ s = a ++ c% " <> " ++ b ∧
      (Expr.bin .eq l r).sql o = .ok (a ++ c% " = " ++ b) := by
  unfold Expr.sql at h ⊢
  rw [negated_text rfl, Expr_sqlN_bin] at h
  obtain ⟨a, ha, h⟩ := bind_ok h
  obtain ⟨b, hb, h⟩ := bind_ok h
  refine ⟨a, b, operand_text ha, operand_text hb, (Except.ok.inj h).symm, ?_⟩
  rw [Expr_sqlN_bin]
  exact ebind ha (ebind hb rfl)

/-- **C26 (<> becomes =).** Always printed on the default options, whatever the options. -/
theorem C26_ne_text (l r : Expr) (o : Opts) (s : Str) (h : (Expr.not (.bin .ne l r)).sql o = .ok s) :
    ∃ a b, Operand l {} a ∧ Operand r {} b ∧ s = a ++ c% " = " ++ b ∧
      (Expr.bin .ne l r).sql {} = .ok (a ++ c% " <> " ++ b) := by
  unfold Expr.sql at h ⊢
  rw [negated_text rfl, Expr_sqlN_bin] at h
  obtain ⟨a, ha, h⟩ := bind_ok h
  obtain ⟨b, hb, h⟩ := bind_ok h
  refine ⟨a, b, operand_text (o := dfltOpts) ha, operand_text (o := dfltOpts) hb, (Except.ok.inj h).symm, ?_⟩
  rw [Expr_sqlN_bin]
  exact ebind ha (ebind hb rfl)

/-- All seven at once, in pretty mode: the hypotheses of `C26_denotes_partial` are met. -/
theorem C26_reached (M : Model) : ∀ v ∈ [Expr.isNull (col (c% "a")), .like (col (c% "a")) (text (c% "x%")) (some (text (c% "!"))),
      .inList (col (c% "a")) [num 1, litOf none], .inQuery (col (c% "a")) (.mk (.values [num 1]) none none [] []),
      .between (.bin .add (col (c% "a")) (num 1)) (num 1) (litOf none), .bin .distinct (col (c% "a")) (litOf none),
      .bin .eq (col (c% "a")) (litOf none), .bin .ne (col (c% "a")) (litOf none)],
    ∃ s c, (Expr.not v).sql { mode := .pretty } = .ok s ∧ P (.lv 0) (toks s) = some (c, []) ∧
      ∀ env, M.truth (c.mean M env) = not3 (M.truth (v.mean M env)) := by
  have key : ∀ (v : Expr) (s : Str), v.Tidy false → v.Fits → v.Rows → v.negatable = true → (Expr.not v).sql { mode := .pretty } = .ok s →
      ∃ s c, (Expr.not v).sql { mode := .pretty } = .ok s ∧ P (.lv 0) (toks s) = some (c, []) ∧
        ∀ env, M.truth (c.mean M env) = not3 (M.truth (v.mean M env)) := by
    intro v s ht hf hr hn hs
    obtain ⟨c, h1, h2⟩ := C26_denotes_partial M v _ s ht hf hr hn hs
    exact ⟨s, c, hs, h1, h2⟩
  intro v hv
  simp only [List.mem_cons, List.not_mem_nil, or_false] at hv
  rcases hv with rfl | rfl | rfl | rfl | rfl | rfl | rfl | rfl <;>
    exact key _ _ (by decide +kernel) (by decide +kernel) (by decide +kernel) rfl rfl

/-- The truth values: with `a` = 2, `NOT (a IN (1, NULL))` is unknown and `NOT (a IN (1, 2))` is false; the
negation of `a BETWEEN 3 AND NULL` is true although a bound is NULL. -/
theorem C26_example :
    let env : ValEnv := fun _ _ => .int 2
    (Expr.not (.inList (col (c% "a")) [num 1, litOf none])).mean intModel env = .null ∧
    (Expr.not (.inList (col (c% "a")) [num 1, num 2])).mean intModel env = .bool false ∧
    (Expr.not (.between (col (c% "a")) (num 3) (litOf none))).mean intModel env = .bool true := by
  refine ⟨rfl, rfl, rfl⟩

end Treeno.Props
