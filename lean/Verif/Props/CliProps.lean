import Verif.Cli
import Verif.Spec.Listing
import Verif.Lemmas.Forgets
import Verif.Lemmas.ReadValid
import Verif.Props.ResolveProps
import Verif.Props.StableProps
import Verif.Props.TypeTextProps
/-!
# C59, C60: the command line
-/
set_option autoImplicit false
namespace Treeno.Props
open Treeno Spec

/-! ## C59: format -/

/-- Resolving a query does not change its text. -/
theorem C59_resolving_keeps_text (s : Schema) (o : Opts) (q : Query) (p : Query × Schema) (h : q.resolve s = .ok p) :
    p.1.sql o = q.sql o := by
  rw [← fg_Query p.1 o, C50_query s q p h, fg_Query]
theorem C59_resolving_keeps_text_expression (s : Schema) (o : Opts) (e e' : Expr) (h : resolveFields s e = .ok e') :
    e'.sql o = e.sql o := by
  rw [Expr.sql, ← fg_Expr e' false o, C50_expression s e e' h, fg_Expr]

/-- **C59.** `format query` prints the pretty text of the query that was read; resolving it first can only fail. -/
theorem C59_query (s t : Str) : formatCommand .query s = .ok t ↔
    ∃ q, queryFromSql s = .ok (some q) ∧ (∃ p, q.resolve .empty = .ok p) ∧ q.sql { mode := .pretty } = .ok t := by
  constructor
  · intro h
    obtain ⟨x, hx, h⟩ := bind_ok h
    obtain ⟨q, hq, hx⟩ := bind_ok hx
    obtain ⟨q', hr, hx⟩ := bind_ok hx
    cases hx
    cases q with
    | none => cases hr
    | some q =>
      obtain ⟨p, hp, hr⟩ := bind_ok hr
      cases hr
      exact ⟨q, hq, ⟨p, hp⟩, (C59_resolving_keeps_text _ _ q p hp).symm.trans h⟩
  · rintro ⟨q, hq, ⟨p, hp⟩, ht⟩
    show (getSqlObject s .query >>= _) = _
    have hg : getSqlObject s .query = .ok (.query p.1) := by
      refine bind_of hq (bind_of (a := p.1) ?_ rfl)
      exact bind_of hp rfl
    rw [hg]
    exact (C59_resolving_keeps_text _ _ q p hp).trans ht

/-- **C59.** Formatting the formatted text of a query changes nothing. -/
theorem C59_query_again_partial (s t : Str) (q : Query) (h : formatCommand .query s = .ok t)
    (hq : queryFromSql s = .ok (some q)) (ht : q.Tidy) (hf : q.Fits) (hr : q.reread = q) :
    formatCommand .query t = .ok t := by
  obtain ⟨ty, hc⟩ := read_query hq
  obtain ⟨q', hq', hp, hs⟩ := (C59_query s t).1 h
  rw [hq] at hq'
  cases hq'
  exact (C59_query t t).2 ⟨q, C27_exact_partial q _ t ty ht hf hr hc hs, hp, hs⟩

/-- **C59.** Nor does it for an expression; what is read then is a tree with the same text. -/
theorem C59_expression_again_partial (s t : Str) (ty : Ty) (e : Expr) (h : formatCommand .expression s = .ok t)
    (he : expressionFromSql s = .ok e) (ht : e.Tidy false) (hf : e.Fits) (hst : e.Stable [] { mode := .pretty })
    (hc : e.reread.check = .ok ty) : formatCommand .expression t = .ok t := by
  have hs : e.sql { mode := .pretty } = .ok t := by
    obtain ⟨x, hx, h⟩ := bind_ok h
    obtain ⟨e', he', hx⟩ := bind_ok hx
    cases hx
    rw [he] at he'
    cases he'
    exact h
  obtain ⟨e', h1, h2⟩ := C16_expression_partial e _ t ty ht hf hst hc hs
  have hg : getSqlObject t .expression = .ok (.expression e') := bind_of h1 rfl
  show (getSqlObject t .expression >>= _) = _
  rw [hg]
  exact h2

/-- **C59.** Nor for a type. -/
theorem C59_type_again_partial (s t : Str) (ty : Ty) (h : formatCommand .type s = .ok t) (hty : typeFromSql s = .ok ty)
    (hv : Valid ty) (hr : Readable ty) : formatCommand .type t = .ok t := by
  obtain ⟨x, hx, h⟩ := bind_ok h
  obtain ⟨ty', ht', hx⟩ := bind_ok hx
  cases hx
  rw [hty] at ht'
  cases ht'
  cases h
  have hg : getSqlObject ty.sql .type = .ok (.type ty) := bind_of (C01_round_trip_partial ty hv hr) rfl
  show (getSqlObject ty.sql .type >>= _) = _
  rw [hg]
  rfl

/-- `SELECT t.x + 1 AS y, * FROM t WHERE x > 2` -/
def plainQuery : Query :=
  .mk (.select [.alias (.bin .add (tcol (c% "t") (c% "x")) (num 1)) (c% "y"), .star none .unknown]
    (some (.table { name := c% "t" })) (some (.bin .gt (col (c% "x")) (num 2))) none none false []) none none [] []
def plainPretty : Str := c% "SELECT \"t\".\"x\" + 1 \"y\",*\n  FROM \"t\"\n WHERE \"x\" > 2"

theorem C59_reached : formatCommand .query (c% "select t.x+1 as y, * from t where x > 2") = .ok plainPretty ∧
    formatCommand .query plainPretty = .ok plainPretty := by
  have hq : queryFromSql (c% "select t.x+1 as y, * from t where x > 2") = .ok (some plainQuery) := query_of_parserN 60 (by krfl)
  have h : formatCommand .query (c% "select t.x+1 as y, * from t where x > 2") = .ok plainPretty :=
    (C59_query _ _).2 ⟨plainQuery, hq, ⟨_, rfl⟩, rfl⟩
  exact ⟨h, C59_query_again_partial _ _ plainQuery h hq (by decide +kernel) (by decide +kernel) rfl⟩

/-- A query that is read and can be printed, but whose resolution fails, cannot be formatted. -/
theorem C59_refused : (∃ q t, queryFromSql (c% "VALUES 1") = .ok (some q) ∧ q.sql { mode := .pretty } = .ok t) ∧
    ∀ t, formatCommand .query (c% "VALUES 1") ≠ .ok t := by
  have hq : queryFromSql (c% "VALUES 1") = .ok (some (.mk (.values [num 1]) none none [] [])) := query_of_parserN 60 (by krfl)
  refine ⟨⟨_, _, hq, rfl⟩, fun t h => ?_⟩
  obtain ⟨q, hq', ⟨p, hp⟩, _⟩ := (C59_query _ _).1 h
  rw [hq] at hq'
  cases hq'
  cases hp

/-! ## C60: schema -/

/-- **C60.** `schema` lists the output columns of the query that was read, resolved once: the two resolutions the
command makes are as good as one. -/
theorem C60_columns (style : Str → Str) (s t : Str) : schemaCommand style s = .ok t ↔
    ∃ q p, queryFromSql s = .ok (some q) ∧ q.resolve .empty = .ok p ∧ t = schemaText style p.2 := by
  constructor
  · intro h
    obtain ⟨x, hx, h⟩ := bind_ok h
    obtain ⟨q, hq, hx⟩ := bind_ok hx
    obtain ⟨q', hr, hx⟩ := bind_ok hx
    cases hx
    cases q with
    | none => cases hr
    | some q =>
      obtain ⟨p, hp, hr⟩ := bind_ok hr
      cases hr
      obtain ⟨p', hp', h⟩ := bind_ok h
      rw [C58_query _ q p hp] at hp'
      cases hp'
      cases h
      exact ⟨q, p, hq, hp, rfl⟩
  · rintro ⟨q, p, hq, hp, rfl⟩
    have hg : getSqlObject s .query = .ok (.query p.1) := by
      refine bind_of hq (bind_of (a := p.1) ?_ rfl)
      exact bind_of hp rfl
    refine bind_of hg ?_
    exact bind_of (C58_query _ q p hp) rfl

theorem schemaText_lists (style : Str → Str) : ∀ (cs : List Col), cs ≠ [] → (∀ c ∈ cs, c.name.isSome = true ∧ c.ty ≠ .unknown) →
    Spec.Lists PlainLine cs (join (c% "\n") (cs.map (schemaLine style)))
  | [], h, _ => absurd rfl h
  | [c], _, h => by
    obtain ⟨hn, ht⟩ := h c (.head _)
    obtain ⟨n, k, t⟩ := c
    cases n with
    | none => cases hn
    | some n =>
      have : schemaLine style ⟨some n, k, t⟩ = n ++ c% " - " ++ t.sql := by
        unfold schemaLine
        rw [if_neg ht]
        rfl
      show Spec.Lists PlainLine _ (schemaLine style ⟨some n, k, t⟩)
      rw [this]
      exact .one (.mk n k t ht)
  | c :: d :: cs, _, h => by
    obtain ⟨hn, ht⟩ := h c (.head _)
    obtain ⟨n, k, t⟩ := c
    cases n with
    | none => cases hn
    | some n =>
      have : schemaLine style ⟨some n, k, t⟩ = n ++ c% " - " ++ t.sql := by
        unfold schemaLine
        rw [if_neg ht]
        rfl
      have ih := schemaText_lists style (d :: cs) nofun (fun c hc => h c (.tail _ hc))
      show Spec.Lists PlainLine _ (schemaLine style ⟨some n, k, t⟩ ++ c% "\n" ++ join (c% "\n") ((d :: cs).map (schemaLine style)))
      rw [this, List.append_assoc]
      exact .more (.mk n k t ht) ih

/-- **C60.** When every output column has a name and a known type, the text is the plain listing of the columns. -/
theorem C60_listing_partial (style : Str → Str) (s : Str) (q : Query) (p : Query × Schema) (hq : queryFromSql s = .ok (some q))
    (hp : q.resolve .empty = .ok p) (hne : p.2.fields ≠ []) (hk : ∀ c ∈ p.2.fields, c.name.isSome = true ∧ c.ty ≠ .unknown) :
    ∃ t, schemaCommand style s = .ok t ∧ Spec.Lists PlainLine p.2.fields t := by
  refine ⟨schemaText style p.2, (C60_columns style s _).2 ⟨q, p, hq, hp, rfl⟩, ?_⟩
  unfold schemaText
  rw [if_neg (by cases hf : p.2.fields <;> simp_all)]
  exact schemaText_lists style _ hne hk

/-- `SELECT 1 AS a, 'x' AS b` -/
def twoCols : Query := .mk (.select [.alias (num 1) (c% "a"), .alias (text (c% "x")) (c% "b")] none none none none false []) none none [] []
theorem C60_reached : schemaCommand id (c% "SELECT 1 AS a, 'x' AS b") = .ok (c% "a - INTEGER\nb - VARCHAR(1)") := by
  have hq : queryFromSql (c% "SELECT 1 AS a, 'x' AS b") = .ok (some twoCols) := query_of_parserN 60 (by krfl)
  exact (C60_columns _ _ _).2 ⟨_, _, hq, rfl, rfl⟩

/-- A column without a name is listed as if its name were `None`: the command tests the field and not its name. -/
theorem C60_unnamed_false (style : Str → Str) : schemaCommand style (c% "SELECT 1") = .ok (c% "None - INTEGER") ∧
    schemaCommand style (c% "SELECT 1 AS \"None\"") = .ok (c% "None - INTEGER") := by
  constructor
  · have hq : queryFromSql (c% "SELECT 1") = .ok (some (.mk (.select [num 1] none none none none false []) none none [] [])) :=
      query_of_parserN 60 (by krfl)
    exact (C60_columns _ _ _).2 ⟨_, _, hq, rfl, rfl⟩
  · have hq : queryFromSql (c% "SELECT 1 AS \"None\"") =
        .ok (some (.mk (.select [.alias (num 1) (c% "None")] none none none none false []) none none [] [])) :=
      query_of_parserN 60 (by krfl)
    exact (C60_columns _ _ _).2 ⟨_, _, hq, rfl, rfl⟩

end Treeno.Props
