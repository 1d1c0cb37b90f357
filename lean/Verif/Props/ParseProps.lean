import Verif.Lemmas.ParseSound
import Verif.Lemmas.Complete
import Verif.Convert
/-!
# C53 (expressions and queries): what the parsers accept

`CE.Wf`, `CQ.Wf` (Spec/Grammar.lean) say which trees the rules of the grammar allow, with the level of
every operand; `CE.yield`, `CQ.yield` (Spec/Yield.lean) are the tokens of a tree; `CE.Plain`, `CQ.Plain`
(Spec/PlainTree.lean) are the trees of the alternatives that printed text uses.
-/
set_option autoImplicit false
namespace Treeno.Props
open Spec

/-- **C53 (expressions).** `expression_from_sql` only succeeds on a text whose tokens, all of them, are those
of a tree allowed by the grammar, up to the case of keywords; the result is the conversion of that tree. -/
theorem C53_expression_sound (s : Str) (e : Expr) (h : expressionFromSql s = .ok e) :
    ∃ c : CE, c.Wf ∧ (toks s).map canon = c.yield.map canon ∧ c.conv = .ok e := by
  unfold expressionFromSql at h
  split at h
  · next c hp =>
    obtain ⟨a, _, used, b, d⟩ := lv_s P_sound hp
    refine ⟨c, a, ?_, h⟩
    rw [b, List.append_nil]; exact d
  · exact absurd h (by simp)

/-- **C53 (queries).** `query_from_sql` only succeeds on a text that starts with the tokens of a query allowed
by the grammar, up to the case of keywords; the result is the conversion of that query. -/
theorem C53_query_sound (s : Str) (q : Option Query) (h : queryFromSql s = .ok q) :
    ∃ c : CQ, c.Wf ∧ (∃ used rest, toks s = used ++ rest ∧ used.map canon = c.yield.map canon) ∧ c.conv = .ok q := by
  unfold queryFromSql at h
  split at h
  · next c rest hp =>
    obtain ⟨a, used, b, d⟩ := query_s P_sound hp
    exact ⟨c, a, ⟨used, rest, b, d⟩, h⟩
  · exact absurd h (by simp)

/-- **C53.** The parser keeps to the levels of the grammar: what rule `p` returns binds at least as strongly
as rule `p`, and both operands of a comparison bind stronger than a comparison. So comparisons are never
chained without parentheses. -/
theorem C53_comparison_operands (p : Nat) (ts rest : List Tok) (t : Tok) (l r : CE)
    (h : P (.lv p) ts = some (.cmp t l r, rest)) : p ≤ 3 ∧ 4 ≤ l.lvl ∧ 4 ≤ r.lvl := by
  obtain ⟨a, b, _⟩ := lv_s P_sound h
  simp only at a b
  rw [CE_Wf_cmp] at a
  exact ⟨b, a.2.2.1, a.2.2.2.2⟩

/-- **C53.** Binary operators associate to the left: the right operand of `OR`, `AND`, `+`, `-`, `*`, `/`,
`%`, `||` binds strictly stronger than the operator itself. -/
theorem C53_left_associative (p : Nat) (ts rest : List Tok) (c : CE) (h : P (.lv p) ts = some (c, rest)) :
    (∀ l r, c = .or_ l r → 1 ≤ r.lvl) ∧ (∀ l r, c = .and_ l r → 1 ≤ l.lvl ∧ 2 ≤ r.lvl) ∧
    (∀ l r, c = .concat l r → 4 ≤ l.lvl ∧ 5 ≤ r.lvl) ∧
    (∀ t l r, c = .arith t l r → c.lvl ≤ l.lvl ∧ c.lvl + 1 ≤ r.lvl) := by
  obtain ⟨a, b, _⟩ := lv_s P_sound h
  simp only at a b
  refine ⟨?_, ?_, ?_, ?_⟩
  · rintro l r rfl; rw [CE_Wf_or_] at a; exact a.2.2
  · rintro l r rfl; rw [CE_Wf_and_] at a; exact ⟨a.2.1, a.2.2.2⟩
  · rintro l r rfl; rw [CE_Wf_concat] at a; exact ⟨a.2.1, a.2.2.2⟩
  · rintro t l r rfl
    rw [CE_Wf_arith] at a
    obtain ⟨_, _, _, d⟩ := a
    simp only [CE.lvl]
    split at d
    · next h => rw [if_pos h]; exact d
    · next h => rw [if_neg h]; exact d

/-- **C53 (completeness, expressions).** A text whose tokens are those of a plain tree is read as that
tree: no other reading is chosen and nothing is rejected. -/
theorem C53_expression_complete (s : Str) (c : CE) (hc : c.Plain) (h : toks s = c.yield) :
    expressionFromSql s = c.conv := by
  have hp := (CE.good c hc).full 0 (Nat.zero_le _) [] trivial
  rw [List.append_nil, ← h] at hp
  rw [expressionFromSql, hp]

/-- **C53 (completeness, queries).** -/
theorem C53_query_complete (s : Str) (q : CQ) (hq : q.Plain) (h : toks s = q.yield) :
    queryFromSql s = q.conv := by
  have hp := CQ.good q hq [] Hd.nil
  rw [List.append_nil, ← h] at hp
  rw [queryFromSql, hp]

/-- **C53.** The grammar is unambiguous on plain trees: different ones have different tokens. -/
theorem C53_unambiguous (c d : CE) (hc : c.Plain) (hd : d.Plain) (h : c.yield = d.yield) : c = d := by
  have h1 := (CE.good c hc).full 0 (Nat.zero_le _) [] trivial
  have h2 := (CE.good d hd).full 0 (Nat.zero_le _) [] trivial
  rw [h, h2] at h1
  cases h1
  rfl

/-- Different plain queries have different tokens. -/
theorem C53_unambiguous_queries (c d : CQ) (hc : c.Plain) (hd : d.Plain) (h : c.yield = d.yield) : c = d := by
  have h1 := CQ.good c hc [] Hd.nil
  have h2 := CQ.good d hd [] Hd.nil
  rw [h, h2] at h1
  cases h1
  rfl

/-- The hypotheses are met: `a - (b - 1) < COUNT(*)` has a plain tree. -/
theorem C53_expression_complete_reached : ∃ c : CE, c.Plain ∧ toks (c% "a - (b - 1) < COUNT(*)") = c.yield := by
  refine ⟨.cmp ⟨.sym, c% "<"⟩ (.arith ⟨.sym, c% "-"⟩ (.col ⟨.ident, c% "a"⟩)
    (.paren (.arith ⟨.sym, c% "-"⟩ (.col ⟨.ident, c% "b"⟩) (.num false ⟨.int, c% "1"⟩))))
    (.callStar [⟨.kw, c% "COUNT"⟩] none none none), ?_, by rfl⟩
  have hw : ∀ s, Word ⟨.ident, s⟩ := fun s => ⟨.inl rfl, fun h => by cases h⟩
  have hk : Word ⟨.kw, c% "COUNT"⟩ := ⟨.inr (.inr (.inr (.inr ⟨rfl, by decide +kernel⟩))), fun _ => by decide +kernel⟩
  rw [CE_Plain_cmp, CE_Plain_arith, CE_Plain_paren, CE_Plain_arith, CE_Plain_callStar, CE_Plain_col, CE_Plain_col, CE_Plain_num,
    CE_PlainOpt_none, CWin_PlainOpt_none]
  refine ⟨List.mem_map.mpr ⟨c% "<", by decide +kernel, rfl⟩, ⟨hw _, ⟨⟨hw _, .inl rfl, ?_⟩, rfl⟩, ?_⟩, by decide, ⟨List.cons_ne_nil _ _, ?_, ?_, trivial, trivial⟩, by decide⟩
  · exact .inl ⟨List.mem_map.mpr ⟨c% "-", by decide +kernel, rfl⟩, by decide, by decide⟩
  · exact .inl ⟨List.mem_map.mpr ⟨c% "-", by decide +kernel, rfl⟩, by decide, by decide⟩
  · intro t h
    rw [List.mem_singleton] at h
    exact h ▸ hk
  · intro t h
    exact nomatch h

/-- The hypothesis is met: `a + 2 * b < c` is read. -/
theorem C53_expression_sound_reached :
    ∃ c, P (.lv 0) (toks (c% "a + 2 * b < c")) = some (c, []) ∧ c.lvl = 3 := by
  have h : ∃ c, parserN 60 (.lv 0) (toks (c% "a + 2 * b < c")) = some (c, []) ∧ c.lvl = 3 := ⟨_, rfl, rfl⟩
  obtain ⟨c, h, hl⟩ := h
  exact ⟨c, P_of_parserN h, hl⟩

set_option maxRecDepth 40000 in
/-- The hypothesis is met: a query with a join, grouping and ordering is read. -/
theorem C53_query_sound_reached :
    ∃ c, P .query (toks (c% "select x, count(*) from t join u on t.a = u.a group by x order by 2 desc limit 3")) =
      some (c, []) := by
  have h : ∃ c, parserN 60 .query
      (toks (c% "select x, count(*) from t join u on t.a = u.a group by x order by 2 desc limit 3")) =
      some (c, []) := ⟨_, rfl⟩
  obtain ⟨c, h⟩ := h
  exact ⟨c, P_of_parserN h⟩

end Treeno.Props
