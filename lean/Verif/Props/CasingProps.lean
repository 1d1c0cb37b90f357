import Verif.Lemmas.Marks
import Verif.Props.ParseProps
import Verif.Lemmas.SpelledNamed
import Verif.Lemmas.ParseSound
import Verif.Lemmas.TypeSound
import Verif.Lemmas.Krfl
import Verif.Props.RoundTripLimits
import Verif.Props.CallProps
/-!
# C66: upper and lower case keywords
-/
set_option autoImplicit false
namespace Treeno.Props
open Treeno Spec

/-! ## The same texts are accepted -/

/-- Two texts whose tokens are the same up to the case of keywords are both expressions, or both not. -/
theorem C66_expression_accepted (s s' : Str) (h : SameWords (fun _ => true) (toks s) (toks s')) :
    (∃ c, P (.lv 0) (toks s) = some (c, [])) ↔ ∃ c, P (.lv 0) (toks s') = some (c, []) := by
  obtain ⟨vs, e1, e2⟩ := marks h (toks_lexed s) (toks_lexed s')
  rw [← e1, ← e2, (P_nat (unmark_keeps _ _)).lv, (P_nat (unmark_keeps _ _)).lv]
  cases P (.lv 0) vs with
  | none => exact ⟨fun ⟨_, h⟩ => (nomatch h), fun ⟨_, h⟩ => (nomatch h)⟩
  | some x =>
    obtain ⟨c, rest⟩ := x
    cases rest with
    | nil => exact ⟨fun _ => ⟨_, rfl⟩, fun _ => ⟨_, rfl⟩⟩
    | cons t r =>
      exact ⟨fun ⟨_, h⟩ => List.noConfusion rfl (heq_of_eq (congrArg Prod.snd (Option.some.inj h))),
        fun ⟨_, h⟩ => List.noConfusion rfl (heq_of_eq (congrArg Prod.snd (Option.some.inj h)))⟩

/-- The same for queries; what is left unread is as long. -/
theorem C66_query_accepted (s s' : Str) (h : SameWords (fun _ => true) (toks s) (toks s')) (n : Nat) :
    (∃ c rest, P .query (toks s) = some (c, rest) ∧ rest.length = n) ↔
      ∃ c rest, P .query (toks s') = some (c, rest) ∧ rest.length = n := by
  obtain ⟨vs, e1, e2⟩ := marks h (toks_lexed s) (toks_lexed s')
  rw [← e1, ← e2, (P_nat (unmark_keeps _ _)).query, (P_nat (unmark_keeps _ _)).query]
  cases P .query vs with
  | none => exact ⟨fun ⟨_, _, h, _⟩ => (nomatch h), fun ⟨_, _, h, _⟩ => (nomatch h)⟩
  | some x =>
    obtain ⟨c, rest⟩ := x
    constructor
    · rintro ⟨_, _, e, hl⟩
      cases e
      exact ⟨_, _, rfl, by rw [List.length_map] at hl ⊢; exact hl⟩
    · rintro ⟨_, _, e, hl⟩
      cases e
      exact ⟨_, _, rfl, by rw [List.length_map] at hl ⊢; exact hl⟩

/-! ## The same trees are read -/

/-- What `expressionFromSql` and `queryFromSql` do with the tokens of a text. -/
noncomputable def exprOfToks (ts : List Tok) : Except Err Expr :=
  match P (.lv 0) ts with
  | some (c, []) => c.conv
  | _ => .error .syntax
noncomputable def queryOfToks (ts : List Tok) : Except Err (Option Query) :=
  match P .query ts with
  | some (c, _) => c.conv
  | none => .error .syntax

theorem expr_marked {p : Str → Bool} {ts us : List Tok} (ht : Lexed ts) (hu : Lexed us) (h : SameWords p ts us)
    (hf : ∀ vs c, vs.map (unmark p false) = ts → vs.map (unmark p true) = us → P (.lv 0) vs = some (c, []) →
      Fixes (unmark p false) c.spelled ∧ Fixes (unmark p true) c.spelled) :
    exprOfToks ts = exprOfToks us := by
  obtain ⟨vs, e1, e2⟩ := marks h ht hu
  have hv := hf vs
  unfold exprOfToks
  rw [← e1, ← e2, (P_nat (unmark_keeps _ _)).lv, (P_nat (unmark_keeps _ _)).lv]
  cases hp : P (.lv 0) vs with
  | none => rfl
  | some x =>
    obtain ⟨c, rest⟩ := x
    cases rest with
    | cons t r => rfl
    | nil =>
      obtain ⟨f1, f2⟩ := hv c e1 e2 hp
      exact (cr_CE_conv (unmark_keeps _ _) c f1).trans (cr_CE_conv (unmark_keeps _ _) c f2).symm
theorem expression_marked {p : Str → Bool} {s s' : Str} (h : SameWords p (toks s) (toks s'))
    (hf : ∀ vs c, vs.map (unmark p false) = toks s → vs.map (unmark p true) = toks s' → P (.lv 0) vs = some (c, []) →
      Fixes (unmark p false) c.spelled ∧ Fixes (unmark p true) c.spelled) :
    expressionFromSql s = expressionFromSql s' := expr_marked (toks_lexed s) (toks_lexed s') h hf

theorem q_marked {p : Str → Bool} {ts us : List Tok} (ht : Lexed ts) (hu : Lexed us) (h : SameWords p ts us)
    (hf : ∀ vs c rest, vs.map (unmark p false) = ts → vs.map (unmark p true) = us →
      P .query vs = some (c, rest) → Fixes (unmark p false) c.spelled ∧ Fixes (unmark p true) c.spelled) :
    queryOfToks ts = queryOfToks us := by
  obtain ⟨vs, e1, e2⟩ := marks h ht hu
  have hv := hf vs
  unfold queryOfToks
  rw [← e1, ← e2, (P_nat (unmark_keeps _ _)).query, (P_nat (unmark_keeps _ _)).query]
  cases hp : P .query vs with
  | none => rfl
  | some x =>
    obtain ⟨c, rest⟩ := x
    obtain ⟨f1, f2⟩ := hv c rest e1 e2 hp
    exact (cr_CQ_conv (unmark_keeps _ _) c f1).trans (cr_CQ_conv (unmark_keeps _ _) c f2).symm
theorem query_marked {p : Str → Bool} {s s' : Str} (h : SameWords p (toks s) (toks s'))
    (hf : ∀ vs c rest, vs.map (unmark p false) = toks s → vs.map (unmark p true) = toks s' →
      P .query vs = some (c, rest) → Fixes (unmark p false) c.spelled ∧ Fixes (unmark p true) c.spelled) :
    queryFromSql s = queryFromSql s' := q_marked (toks_lexed s) (toks_lexed s') h hf

theorem type_marked {p : Str → Bool} {s s' : Str} (h : SameWords p (toks s) (toks s'))
    (hf : ∀ vs c, vs.map (unmark p false) = toks s → vs.map (unmark p true) = toks s' → pType vs = some (c, []) →
      Fixes (unmark p false) c.spelled ∧ Fixes (unmark p true) c.spelled) :
    typeFromSql s = typeFromSql s' := by
  obtain ⟨vs, e1, e2⟩ := marks h (toks_lexed s) (toks_lexed s')
  have hv := hf vs
  unfold typeFromSql
  rw [← e1, ← e2, pType_map (unmark_keeps _ _), pType_map (unmark_keeps _ _)]
  cases hp : pType vs with
  | none => rfl
  | some x =>
    obtain ⟨c, rest⟩ := x
    cases rest with
    | cons t r => rfl
    | nil =>
      obtain ⟨f1, f2⟩ := hv c e1 e2 hp
      exact (cr_CTy_conv (unmark_keeps _ _) c f1).trans (cr_CTy_conv (unmark_keeps _ _) c f2).symm

theorem named_fixed {b : Bool} {ts : List Tok} (h : AllN ts) : Fixes (unmark structural b) ts := fun t ht => by
  rcases unmark_cases structural b t with e | ⟨hk, _⟩
  · exact e
  · exact absurd (h t ht hk.1) (by rw [hk.2.1]; exact Bool.noConfusion)

/-- Changing the case of reserved words other than DISTINCT does not change the expression that is read. -/
theorem C66_expression_reserved_partial (s s' : Str) (h : SameWords structural (toks s) (toks s')) :
    expressionFromSql s = expressionFromSql s' :=
  expression_marked h fun vs _ _ _ hp =>
    have hn := nm_CE_Wf _ (P_sound (.lv 0) vs _ hp).1
    ⟨named_fixed hn, named_fixed hn⟩

/-- Changing the case of reserved words other than DISTINCT does not change the query that is read. -/
theorem C66_query_reserved_partial (s s' : Str) (h : SameWords structural (toks s) (toks s')) :
    queryFromSql s = queryFromSql s' :=
  query_marked h fun vs _ _ _ _ hp =>
    have hn := nm_CQ_Wf _ (P_sound .query vs _ hp).1
    ⟨named_fixed hn, named_fixed hn⟩

/-- **C53.** A text is read as a plain tree also when its reserved words, other than DISTINCT, are in lower case. -/
theorem C53_expression_complete_cased (s : Str) (c : CE) (hc : c.Plain)
    (hl : ∀ t ∈ c.yield, t.kind = .kw → isKeyword t.text = true) (h : SameWords structural c.yield (toks s)) :
    expressionFromSql s = c.conv := by
  have hp := (CE.good c hc).full 0 (Nat.zero_le _) [] trivial
  rw [List.append_nil] at hp
  have e : exprOfToks c.yield = c.conv := by rw [exprOfToks, hp]
  rw [← e]
  refine (expr_marked hl (toks_lexed s) h fun vs _ _ _ hp => ?_).symm
  have hn := nm_CE_Wf _ (P_sound (.lv 0) vs _ hp).1
  exact ⟨named_fixed hn, named_fixed hn⟩
/-- **C53.** -/
theorem C53_query_complete_cased (s : Str) (q : CQ) (hq : q.Plain)
    (hl : ∀ t ∈ q.yield, t.kind = .kw → isKeyword t.text = true) (h : SameWords structural q.yield (toks s)) :
    queryFromSql s = q.conv := by
  have hp := CQ.good q hq [] Hd.nil
  rw [List.append_nil] at hp
  have e : queryOfToks q.yield = q.conv := by rw [queryOfToks, hp]
  rw [← e]
  refine (q_marked hl (toks_lexed s) h fun vs _ _ _ _ hp => ?_).symm
  have hn := nm_CQ_Wf _ (P_sound .query vs _ hp).1
  exact ⟨named_fixed hn, named_fixed hn⟩

/-- Changing the case of any keywords does not change the expression that is read, as long as the names, interval
fields and the words of `spelled` stay as they are. -/
theorem C66_expression_partial (s s' : Str) (h : SameWords (fun _ => true) (toks s) (toks s'))
    (hs : ∀ c c', P (.lv 0) (toks s) = some (c, []) → P (.lv 0) (toks s') = some (c', []) → c.spelled = c'.spelled) :
    expressionFromSql s = expressionFromSql s' :=
  expression_marked h fun vs c e1 e2 hp => by
    refine unmark_fixes ?_
    rw [← sr_CE, ← sr_CE]
    refine hs _ _ ?_ ?_
    · rw [← e1, (P_nat (unmark_keeps _ _)).lv, hp]; rfl
    · rw [← e2, (P_nat (unmark_keeps _ _)).lv, hp]; rfl

/-- The same for queries. -/
theorem C66_query_partial (s s' : Str) (h : SameWords (fun _ => true) (toks s) (toks s'))
    (hs : ∀ c c' r r', P .query (toks s) = some (c, r) → P .query (toks s') = some (c', r') → c.spelled = c'.spelled) :
    queryFromSql s = queryFromSql s' :=
  query_marked h fun vs c rest e1 e2 hp => by
    refine unmark_fixes ?_
    rw [← sr_CQ, ← sr_CQ]
    refine hs _ _ (rest.map (unmark (fun _ => true) false)) (rest.map (unmark (fun _ => true) true)) ?_ ?_
    · rw [← e1, (P_nat (unmark_keeps _ _)).query, hp]; rfl
    · rw [← e2, (P_nat (unmark_keeps _ _)).query, hp]; rfl

/-- The words that are not fields of intervals. -/
def notField (w : Str) : Bool :=
  ![c% "YEAR", c% "MONTH", c% "DAY", c% "HOUR", c% "MINUTE", c% "SECOND"].contains w

/-- Changing the case of any words of a type except the fields of intervals does not change the type. -/
theorem C66_type_partial (s s' : Str) (h : SameWords notField (toks s) (toks s')) :
    typeFromSql s = typeFromSql s' :=
  type_marked h fun vs c _ _ hp => by
    obtain ⟨pre, hg, _⟩ := pType_sound hp
    have hn (b : Bool) : AllT (fun t => unmark notField b t = t) c.spelled := by
      refine ty_ty (fun t ht => ?_) (fun t ht => ?_) hg
      · rcases unmark_cases notField b t with e | ⟨hk, _⟩
        · exact e
        · refine absurd hk.2.1 ?_
          rcases ht with ht | ht | ht | ht | ht | ht <;> rw [ht.2] <;> decide
      · exact (unmark_keeps _ _).other t (by rw [ht]; decide)
    exact ⟨hn false, hn true⟩

/-! ## Cases -/

/-- Deciding whether two token lists only differ in the case of keywords. -/
def sameWords (p : Str → Bool) : List Tok → List Tok → Bool
  | [], [] => true
  | t :: ts, u :: us =>
    (decide (t = u) || (decide (t.kind = .kw) && decide (u.kind = .kw) && decide (upper t.text = upper u.text) &&
      p (upper t.text))) && sameWords p ts us
  | _, _ => false
theorem sameWords_sound {p : Str → Bool} : ∀ {ts us : List Tok}, sameWords p ts us = true → SameWords p ts us
  | [], [], _ => .nil
  | [], _ :: _, h => Bool.noConfusion (show false = true from h)
  | _ :: _, [], h => Bool.noConfusion (show false = true from h)
  | t :: ts, u :: us, h => by
    simp only [sameWords, Bool.and_eq_true, Bool.or_eq_true, decide_eq_true_eq] at h
    refine .cons ?_ (sameWords_sound h.2)
    rcases h.1 with e | ⟨⟨⟨a, b⟩, c⟩, d⟩
    · exact .inl e
    · exact .inr ⟨a, b, c, d⟩

example : expressionFromSql (c% "case when a is null and not b in (1, 2) then cast(c as DATE) else true end") =
    expressionFromSql (c% "CASE WHEN a IS NULL AND NOT b IN (1, 2) THEN CAST(c AS DATE) ELSE TRUE END") :=
  C66_expression_reserved_partial _ _ (sameWords_sound (by krfl))
example : queryFromSql (c% "with t as (table u) select a from t cross join v where a between 1 and 2 order by a") =
    queryFromSql (c% "WITH t AS (TABLE u) SELECT a FROM t CROSS JOIN v WHERE a BETWEEN 1 AND 2 ORDER BY a") :=
  C66_query_reserved_partial _ _ (sameWords_sound (by krfl))
/-- Words that may be names as well, used as keywords. -/
example : queryFromSql (c% "select sum(a) over (partition by b rows current row) from t offset 1 row") =
    queryFromSql (c% "SELECT sum(a) OVER (PARTITION BY b ROWS CURRENT ROW) FROM t OFFSET 1 ROW") := by
  refine C66_query_partial _ _ (sameWords_sound (by krfl)) fun c c' r r' h h' => ?_
  have e : (parserN 60 .query (toks (c% "select sum(a) over (partition by b rows current row) from t offset 1 row"))).map
      (fun p => p.1.spelled) = some [⟨.ident, c% "a"⟩, ⟨.ident, c% "b"⟩, ⟨.ident, c% "t"⟩] := by krfl
  have e' : (parserN 60 .query (toks (c% "SELECT sum(a) OVER (PARTITION BY b ROWS CURRENT ROW) FROM t OFFSET 1 ROW"))).map
      (fun p => p.1.spelled) = some [⟨.ident, c% "a"⟩, ⟨.ident, c% "b"⟩, ⟨.ident, c% "t"⟩] := by krfl
  cases hp : parserN 60 .query (toks (c% "select sum(a) over (partition by b rows current row) from t offset 1 row")) with
  | none => rw [hp] at e; exact nomatch e
  | some x =>
    cases hp' : parserN 60 .query (toks (c% "SELECT sum(a) OVER (PARTITION BY b ROWS CURRENT ROW) FROM t OFFSET 1 ROW")) with
    | none => rw [hp'] at e'; exact nomatch e'
    | some x' =>
      rw [P_of_parserN hp] at h
      rw [P_of_parserN hp'] at h'
      rw [hp] at e
      rw [hp'] at e'
      cases h
      cases h'
      exact (Option.some.inj e).trans (Option.some.inj e').symm
example : typeFromSql (c% "map(varchar(3), timestamp(3) with time zone array)") =
    typeFromSql (c% "MAP(varchar(3), TIMESTAMP(3) WITH TIME ZONE ARRAY)") := C66_type_partial _ _ (sameWords_sound (by krfl))

/-- A tree that meets the hypotheses of `C53_expression_complete_cased`: `NOT a = 1`, written `not a = 1`. -/
example : ∃ c : CE, c.Plain ∧ (∀ t ∈ c.yield, t.kind = .kw → isKeyword t.text = true) ∧
    SameWords structural c.yield (toks (c% "not a = 1")) := by
  refine ⟨.not_ (.cmp ⟨.sym, c% "="⟩ (.col ⟨.ident, c% "a"⟩) (.num false ⟨.int, c% "1"⟩)), ?_, ?_, sameWords_sound (by krfl)⟩
  · rw [CE_Plain_not_, CE_Plain_cmp, CE_Plain_col, CE_Plain_num]
    exact ⟨⟨List.mem_map.mpr ⟨c% "=", by decide +kernel, rfl⟩, ⟨.inl rfl, fun h => nomatch h⟩, by decide, .inl rfl, by decide⟩,
      by decide⟩
  · show ∀ t ∈ [kwT (c% "NOT"), ⟨.ident, c% "a"⟩, ⟨.sym, c% "="⟩, ⟨.int, c% "1"⟩], t.kind = .kw → isKeyword t.text = true
    decide +kernel

/-! ## What is not read alike -/

/-- DISTINCT in lower case: `SetQuantifier["distinct"]`, convert.py 326. -/
theorem C66_distinct_lower :
    queryFromSql (c% "SELECT distinct 1") = .error .keyError ∧
      queryFromSql (c% "SELECT DISTINCT 1") ≠ .error .keyError := by
  refine ⟨query_of_parserN 60 (by krfl), ?_⟩
  rw [query_of_parserN (x := .ok (some (.mk (.select [.lit (some (.int 1)) (.simple .integer)] none none none none true [])
    none none [] []))) 60 (by krfl)]
  exact nofun
/-- ALL in lower case after LIMIT: convert.py 282-289 compares with `"ALL"`. -/
theorem C66_limit_all_lower :
    queryFromSql (c% "TABLE t LIMIT all") = .error .assertion ∧
      queryFromSql (c% "TABLE t LIMIT ALL") ≠ .error .assertion := by
  refine ⟨query_of_parserN 60 (by krfl), ?_⟩
  rw [query_of_parserN (x := .ok (some (.mk (.table { name := c% "t" }) none none [] []))) 60 (by krfl)]
  exact nofun
/-- Sampling methods in lower case: `SampleType["system"]`, convert.py 1087. -/
theorem C66_sample_lower :
    queryFromSql (c% "SELECT 1 FROM t TABLESAMPLE system (10)") = .error .keyError := query_of_parserN 60 (by krfl)
/-- Fields of intervals in lower case. -/
theorem C66_interval_lower :
    typeFromSql (c% "INTERVAL day TO second") = .error .assertion ∧
      typeFromSql (c% "INTERVAL DAY TO SECOND") = .ok (.interval .dayToSecond) := ⟨by krfl, by krfl⟩
theorem C66_interval_value_lower :
    expressionFromSql (c% "INTERVAL '1' day") = .error .assertion ∧
      expressionFromSql (c% "INTERVAL '1' DAY") = .ok (.interval (c% "1") (c% "DAY") none) :=
  ⟨expr_of_parserN 60 (by krfl), expr_of_parserN 60 (by krfl)⟩
/-- A word that may be a name keeps the case it is written in. -/
theorem C66_name_case :
    expressionFromSql (c% "date") = .ok (.field (c% "date") none .unknown) ∧
      expressionFromSql (c% "DATE") = .ok (.field (c% "DATE") none .unknown) :=
  ⟨expr_of_parserN 60 (by krfl), expr_of_parserN 60 (by krfl)⟩

end Treeno.Props
