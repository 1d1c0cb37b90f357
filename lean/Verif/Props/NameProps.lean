import Verif.Lemmas.LexName
import Verif.Typing
import Verif.Tokens
import Verif.Lemmas.SqlEqs
import Verif.Lemmas.CheckEqs
/-!
# C23-C25, C32: names, strings and table references in text
-/
set_option autoImplicit false
namespace Treeno.Props
open Treeno

/-! ## C23: quoted names -/

/-- **C23.** A name without a double quote, printed and followed by anything but a double quote, is
one identifier token, and the parser gives that very name back.  Nothing else is asked of the name:
it may be a keyword, contain blanks, periods, line breaks, or be empty.  Missing from the full
claim: names with double quotes (`C23_quote_breaks_name`). -/
theorem C23_quoted_name_partial (n rest : Str) (hn : '"' ∉ n) (hr : rest.head? ≠ some '"') :
    ∃ t, toks (quoteIdent n ++ rest) = t :: toks rest ∧ t.isIdent = true ∧ identText t = .ok n := by
  refine ⟨_, toks_quoted n rest hn hr, rfl, ?_⟩
  show Except.ok (stripC '"' (quoteIdent n)) = _
  rw [quoteIdent, show c% "\"" = ['"'] from rfl, stripC_quoted _ _ hn]

example : '"' ∉ c% "select.from x" ∧ (c% " = 1").head? ≠ some '"' := by decide

-- a column reference named with a reserved word
example : toks ((Expr.field (c% "select") (some (c% "my table")) .unknown).sql dfltOpts |>.toOption.getD []) =
    [⟨.quoted, c% "\"my table\""⟩, ⟨.sym, c% "."⟩, ⟨.quoted, c% "\"select\""⟩] := by rfl

/-- **C23, negative.** A double quote in a name is not doubled when printed, and a name that ends
with one is read back as another name: two different names have the same meaning. -/
theorem C23_quote_breaks_name :
    -- `a"b` is not one token
    (∀ t, toks (quoteIdent (c% "a\"b")) ≠ [t]) ∧
    -- a name of one quote reads as three quotes: an unfinished token
    (toks (quoteIdent (c% "\""))).length ≠ 1 ∧
    -- `a""b` is one token, read back with both quotes
    (toks (quoteIdent (c% "\"\""))).mapM identText = .ok [[]] := by
  refine ⟨?_, by decide +kernel, by rfl⟩
  intro t h
  have : (toks (quoteIdent (c% "a\"b"))).length = 1 := by rw [h]; rfl
  revert this
  decide +kernel

/-! ## C24: quoted strings -/

/-- **C24.** A string without a single quote, printed and followed by anything but a single quote,
is one string token, and the parser gives that very string back.  Missing from the full claim:
strings with single quotes (`C24_quote_breaks_string`). -/
theorem C24_quoted_string_partial (n rest : Str) (hn : '\'' ∉ n) (hr : rest.head? ≠ some '\'') :
    ∃ t, toks (quoteLit n ++ rest) = t :: toks rest ∧ t.kind = .str ∧ stringText t = .ok n := by
  refine ⟨_, toks_string n rest hn hr, rfl, ?_⟩
  show Except.ok (stripC '\'' (quoteLit n)) = _
  rw [quoteLit, show c% "'" = ['\''] from rfl, stripC_quoted _ _ hn]

example : '\'' ∉ c% "-- a \"b\" /* \n" ∧ (c% ") AND").head? ≠ some '\'' := by decide

/-- A literal string prints as its quoted text in both modes. -/
theorem C24_literal_text (o : Opts) (s : Str) (t : Ty) :
    (Expr.lit (some (.str s)) t).sql o = .ok (quoteLit s) := rfl

/-- **C24, negative.** A single quote in a string is not doubled when printed: the text of a string
may be read as code, and strings that differ only in quotes at their ends are confused. -/
theorem C24_quote_breaks_string :
    -- the string `a' OR 'b' = 'b` is read as five tokens
    (toks (quoteLit (c% "a' OR 'b' = 'b"))).map Tok.text =
      [c% "'a'", c% "OR", c% "'b'", c% "=", c% "'b'"] ∧
    -- a string of two quotes is read back as the empty string
    (toks (quoteLit (c% "''"))).mapM stringText = .ok [[]] := by
  constructor <;> rfl

/-! ## C25: qualified names -/

/-- The tokens of a chain of names. -/
def chainToks : List Str → List Tok
  | [] => []
  | [n] => [⟨.quoted, quoteIdent n⟩]
  | n :: ns => ⟨.quoted, quoteIdent n⟩ :: ⟨.sym, c% "."⟩ :: chainToks ns

theorem toks_chain : ∀ (ns : List Str) (rest : Str), (∀ n ∈ ns, '"' ∉ n) → ns ≠ [] →
    rest.head? ≠ some '"' →
    toks (join (c% ".") (ns.map quoteIdent) ++ rest) = chainToks ns ++ toks rest
  | [], _, _, h, _ => absurd rfl h
  | [n], rest, hn, _, hr => toks_quoted n rest (hn n (by simp)) hr
  | n :: m :: ns, rest, hn, _, hr => by
    have e : join (c% ".") ((n :: m :: ns).map quoteIdent) ++ rest =
        quoteIdent n ++ ('.' :: (join (c% ".") ((m :: ns).map quoteIdent) ++ rest)) := by
      simp [join]
    have hd : (join (c% ".") ((m :: ns).map quoteIdent) ++ rest).head? = some '"' := by
      cases ns <;> simp [join, quoteIdent]
    rw [e, toks_quoted n _ (hn n (by simp)) (by simp [NotQuote]), toks_dot _ (by
        intro c hc; rw [hd] at hc; cases hc; rfl),
      toks_chain (m :: ns) rest (fun x hx => hn x (List.mem_cons_of_mem _ hx)) (by simp) hr]
    rfl

/-- `visitQualifiedName`, treeno/builder/convert.py 1105-1108, on the tokens
`identifier ('.' identifier)*`: the names of the identifier tokens. -/
def qualifiedParts : List Tok → Option (List Str)
  | [t] => if t.isIdent then (identText t).toOption.map ([·]) else none
  | t :: d :: ts =>
    if t.isIdent && d.isSym (c% ".") then do
      let n ← (identText t).toOption
      let ns ← qualifiedParts ts
      some (n :: ns)
    else none
  | [] => none

theorem identText_quoted (n : Str) (h : '"' ∉ n) : identText ⟨.quoted, quoteIdent n⟩ = .ok n := by
  show Except.ok (stripC '"' (quoteIdent n)) = _
  rw [quoteIdent, show c% "\"" = ['"'] from rfl, stripC_quoted _ _ h]

theorem qualifiedParts_chain : ∀ (ns : List Str), (∀ n ∈ ns, '"' ∉ n) → ns ≠ [] →
    qualifiedParts (chainToks ns) = some ns
  | [], _, h => absurd rfl h
  | [n], hn, _ => by
    simp [chainToks, qualifiedParts, Tok.isIdent, identText_quoted n (hn n (by simp)), Except.toOption]
  | n :: m :: ns, hn, _ => by
    have ih := qualifiedParts_chain (m :: ns) (fun x hx => hn x (List.mem_cons_of_mem _ hx)) (by simp)
    obtain ⟨a, l, hl⟩ : ∃ a l, chainToks (m :: ns) = a :: l := by
      cases ns <;> exact ⟨_, _, rfl⟩
    show qualifiedParts (⟨.quoted, quoteIdent n⟩ :: ⟨.sym, c% "."⟩ :: chainToks (m :: ns)) = _
    rw [qualifiedParts, ih, identText_quoted n (hn n (by simp))]
    · rfl

/-- **C25.** A chain of names without double quotes is read back as exactly those names. -/
theorem C25_parts_partial (ids : List (Option Str)) (rest : Str) (h : ∀ n, some n ∈ ids → '"' ∉ n)
    (hne : ids.filterMap id ≠ []) (hr : rest.head? ≠ some '"') :
    ∃ ts, toks (chainIdents ids ++ rest) = ts ++ toks rest ∧
      qualifiedParts ts = some (ids.filterMap id) := by
  have hq : ∀ n ∈ ids.filterMap id, '"' ∉ n := by
    intro n hn
    obtain ⟨a, ha, e⟩ := List.mem_filterMap.mp hn
    exact h n (by simpa [show a = some n from e] using ha)
  exact ⟨_, toks_chain _ rest hq hne hr, qualifiedParts_chain _ hq hne⟩

example : ([none, some (c% "s.x"), some (c% "t")] : List (Option Str)).filterMap id ≠ [] ∧
    ∀ n, some n ∈ ([none, some (c% "s.x"), some (c% "t")] : List (Option Str)) → '"' ∉ n := by
  refine ⟨by decide, ?_⟩
  intro n hn
  simp at hn
  rcases hn with rfl | rfl <;> decide

theorem toks_nil : toks [] = [] := rfl

/-- **C25.** Chains of names without double quotes have different texts unless their parts agree. -/
theorem C25_injective_partial (xs ys : List (Option Str)) (hx : ∀ n, some n ∈ xs → '"' ∉ n)
    (hy : ∀ n, some n ∈ ys → '"' ∉ n) (hxn : xs.filterMap id ≠ []) (hyn : ys.filterMap id ≠ [])
    (h : chainIdents xs = chainIdents ys) : xs.filterMap id = ys.filterMap id := by
  obtain ⟨ts, h1, h2⟩ := C25_parts_partial xs [] hx hxn (by simp)
  obtain ⟨us, h3, h4⟩ := C25_parts_partial ys [] hy hyn (by simp)
  rw [toks_nil, List.append_nil, List.append_nil] at h1 h3
  rw [h, h3] at h1
  rw [h1, h2] at h4
  exact Option.some.inj h4

/-- **C25.** Column references: the text tells `t.n` from `n` and from every other pair.  The empty
table name is printed like no table name. -/
theorem C25_columns_partial (o : Opts) (n m : Str) (t u : Option Str) (ty ty' : Ty) (hn : '"' ∉ n)
    (hm : '"' ∉ m) (ht : ∀ x, t = some x → '"' ∉ x ∧ x ≠ []) (hu : ∀ x, u = some x → '"' ∉ x ∧ x ≠ [])
    (h : (Expr.field n t ty).sql o = (Expr.field m u ty').sql o) : n = m ∧ t = u := by
  have et : truthy t = t := by
    match t, ht with
    | none, _ => rfl
    | some [], ht => exact absurd rfl (ht [] rfl).2
    | some (_ :: _), _ => rfl
  have eu : truthy u = u := by
    match u, hu with
    | none, _ => rfl
    | some [], ht => exact absurd rfl (ht [] rfl).2
    | some (_ :: _), _ => rfl
  have h' : chainIdents [truthy t, some n] = chainIdents [truthy u, some m] := Except.ok.inj h
  rw [et, eu] at h'
  have := C25_injective_partial [t, some n] [u, some m]
    (by intro x hx; simp at hx; rcases hx with hx | rfl; exact (ht x hx.symm).1; exact hn)
    (by intro x hx; simp at hx; rcases hx with hx | rfl; exact (hu x hx.symm).1; exact hm)
    (by cases t <;> simp) (by cases u <;> simp) h'
  cases t <;> cases u <;> simp_all

/-- **C25.** Tables that can be built, with names free of double quotes and no empty catalog or
schema: the text determines catalog, schema and name. -/
theorem C25_tables_partial (t u : TableRef) (htc : t.check = .ok ()) (huc : u.check = .ok ())
    (ht : ∀ x ∈ [t.catalog, t.schema, some t.name], ∀ n, x = some n → '"' ∉ n)
    (hu : ∀ x ∈ [u.catalog, u.schema, some u.name], ∀ n, x = some n → '"' ∉ n)
    (ht0 : t.catalog ≠ some [] ∧ t.schema ≠ some []) (hu0 : u.catalog ≠ some [] ∧ u.schema ≠ some [])
    (h : t.sql = u.sql) : t.catalog = u.catalog ∧ t.schema = u.schema ∧ t.name = u.name := by
  have hc : ∀ v : TableRef, v.check = .ok () → v.catalog ≠ some [] → v.schema = none → v.catalog = none := by
    intro v hv h0 hs
    unfold TableRef.check at hv
    rw [hs] at hv
    cases hcv : v.catalog with
    | none => rfl
    | some x =>
      cases x with
      | nil => exact absurd hcv h0
      | cons a b => rw [hcv] at hv; cases hv
  have h1 := hc t htc ht0.1
  have h2 := hc u huc hu0.1
  have h' : [t.catalog, t.schema, some t.name].filterMap id = [u.catalog, u.schema, some u.name].filterMap id :=
    C25_injective_partial _ _ (fun n hn => ht _ hn n rfl) (fun n hn => hu _ hn n rfl)
      (by cases t.catalog <;> cases t.schema <;> simp) (by cases u.catalog <;> cases u.schema <;> simp) h
  cases ct : t.catalog <;> cases st : t.schema <;> cases cu : u.catalog <;> cases su : u.schema <;>
    simp_all

example : ({ name := c% "t", schema := some (c% "s"), catalog := some (c% "c.d") } : TableRef).check = .ok () := by
  rfl

/-- **C25, negative.** Without the conditions different references have the same text. -/
theorem C25_quotes_confuse :
    (Expr.field (c% "a\".\"b") none .unknown).sql dfltOpts =
      (Expr.field (c% "b") (some (c% "a")) .unknown).sql dfltOpts ∧
    -- an empty catalog without a schema is accepted and prints like an empty schema
    (({ name := c% "t", catalog := some [] } : TableRef).check = .ok () ∧
     ({ name := c% "t", catalog := some [] } : TableRef).sql =
      ({ name := c% "t", schema := some [] } : TableRef).sql) := by
  refine ⟨by rfl, by rfl, by rfl⟩

/-! ## C32: table references -/

/-- **C32.** A table can be built exactly when a (non-empty) catalog comes with a (non-empty)
schema; otherwise an assertion fails. -/
theorem C32_constructed (t : TableRef) :
    ((Rel.table t).check = .ok () ↔
      ((∃ c, t.catalog = some c ∧ c ≠ []) → ∃ s, t.schema = some s ∧ s ≠ [])) ∧
    ((Rel.table t).check ≠ .ok () → (Rel.table t).check = .error .assertion) := by
  have e : (Rel.table t).check = t.check := rfl
  rw [e]
  unfold TableRef.check
  rcases hc : t.catalog with _ | ⟨_ | ⟨a, l⟩⟩ <;> rcases hs : t.schema with _ | ⟨_ | ⟨b, m⟩⟩ <;>
    simp [truthy]

/-- **C32.** A dotted name of one to three non-empty parts becomes the table with these parts. -/
theorem C32_parts (c s n : Str) (hs : s ≠ []) :
    tableFromQualifiers [n] = .ok { name := n } ∧
    tableFromQualifiers [s, n] = .ok { name := n, schema := some s } ∧
    tableFromQualifiers [c, s, n] = .ok { name := n, schema := some s, catalog := some c } := by
  obtain ⟨a, l, rfl⟩ : ∃ a l, s = a :: l := by
    cases s with
    | nil => exact absurd rfl hs
    | cons a l => exact ⟨a, l, rfl⟩
  refine ⟨rfl, rfl, ?_⟩
  cases c <;> rfl

/-- **C32.** Printing a table and reading its name gives the table back, for tables with non-empty
names free of double quotes that can be built (remembered columns aside). -/
theorem C32_round_trip_partial (t : TableRef) (ht : t.check = .ok ())
    (hq : ∀ x ∈ [t.catalog, t.schema, some t.name], ∀ n, x = some n → '"' ∉ n)
    (h0 : t.catalog ≠ some [] ∧ t.schema ≠ some []) :
    ∃ parts, qualifiedParts (toks t.sql) = some parts ∧
      tableFromQualifiers parts = .ok { t with cols := [] } := by
  obtain ⟨ts, h1, h2⟩ := C25_parts_partial [t.catalog, t.schema, some t.name] []
    (fun n hn => hq _ hn n rfl) (by cases t.catalog <;> cases t.schema <;> simp) (by simp)
  rw [toks_nil, List.append_nil, List.append_nil] at h1
  refine ⟨[t.catalog, t.schema, some t.name].filterMap id, ?_, ?_⟩
  · show qualifiedParts (toks (chainIdents _)) = _
    rw [h1, h2]
  · obtain ⟨name, schema, catalog, cols⟩ := t
    unfold TableRef.check at ht
    simp only at ht h0
    match catalog, schema, ht, h0 with
    | none, none, _, _ => rfl
    | none, some s, _, _ => rfl
    | some [], _, _, h => exact absurd rfl h.1
    | some (_ :: _), none, h, _ => cases h
    | some (_ :: _), some [], _, h => exact absurd rfl h.2
    | some (_ :: _), some (_ :: _), _, _ => rfl

/-- **C32, negative.** Longer names are not refused: all but the last three parts are dropped. -/
theorem C32_long_names_truncated (xs : List Str) (c s n : Str) (hs : s ≠ []) :
    tableFromQualifiers (xs ++ [c, s, n]) = .ok { name := n, schema := some s, catalog := some c } := by
  rw [← (C32_parts c s n hs).2.2]
  unfold tableFromQualifiers
  simp only [List.reverse_append, List.reverse_cons, List.reverse_nil, List.nil_append, List.cons_append]
  rfl

end Treeno.Props
