import Verif.Spec.QueryText
import Verif.Typing
import Verif.Lemmas.SqlEqs
import Verif.Lemmas.CheckEqs
import Verif.Lemmas.TypeText
import Verif.Lemmas.Digits
import Verif.Props.PrinterProps
/-!
# C28-C30: the text of queries
-/
set_option autoImplicit false
namespace Treeno.Props
open Treeno Spec

/-! ### Helpers -/

theorem listEntry_filled {α : Type} {o : Opts} {key pre : Str} {sql : α → Str → Prop} {xs : List α}
    {ss : List Str} {es : Entries} (h2 : All2 sql xs ss) (h : listEntry o key pre ss = .ok es)
    {cs : List Clause} {rest : Entries} (hr : Filled cs rest) (p : Prop) (hp : p ↔ xs ≠ []) :
    Filled (⟨key, p, ListOf o pre sql xs⟩ :: cs) (es ++ rest) := by
  unfold listEntry at h
  cases h2 with
  | nil =>
    simp at h
    subst h
    exact .absent (by rw [hp]; simp) hr
  | cons ha has =>
    simp only [List.isEmpty_cons, Bool.false_eq_true, if_false] at h
    obtain ⟨j, hj, h⟩ := bind_ok h
    cases h
    exact .present (hp.mpr (by simp)) ⟨_, _, .cons ha has, hj, rfl⟩ hr

theorem sqls_all2 {o : Opts} : ∀ {es : List Expr} {ss}, Expr.sqls o es = .ok ss →
    All2 (fun e s => e.sql o = .ok s) es ss
  | [], ss, h => by cases h; exact .nil
  | e :: es, ss, h => by
    rw [Expr_sqls_cons] at h
    obtain ⟨s, hs, h⟩ := bind_ok h
    obtain ⟨r, hr, h⟩ := bind_ok h
    cases h
    exact .cons hs (sqls_all2 hr)

theorem ords_all2 {o : Opts} : ∀ {es : List Ord} {ss}, Ord.sqls o es = .ok ss →
    All2 (fun e s => e.sql o = .ok s) es ss
  | [], ss, h => by cases h; exact .nil
  | e :: es, ss, h => by
    rw [Ord_sqls_cons] at h
    obtain ⟨s, hs, h⟩ := bind_ok h
    obtain ⟨r, hr, h⟩ := bind_ok h
    cases h
    exact .cons hs (ords_all2 hr)

theorem named_all2 {o : Opts} : ∀ {es : List Named} {ss}, Named.namedSqls o es = .ok ss →
    All2 (fun e s => e.namedSql o = .ok s) es ss
  | [], ss, h => by cases h; exact .nil
  | e :: es, ss, h => by
    rw [Named_namedSqls_cons] at h
    obtain ⟨s, hs, h⟩ := bind_ok h
    obtain ⟨r, hr, h⟩ := bind_ok h
    cases h
    exact .cons hs (named_all2 hr)

theorem wins_all2 {o : Opts} : ∀ {es : List (Str × Win)} {ss}, Win.namedSqls o es = .ok ss →
    All2 (NamedWindow o) es ss
  | [], ss, h => by cases h; exact .nil
  | (n, w) :: es, ss, h => by
    rw [Win_namedSqls_cons] at h
    obtain ⟨s, hs, h⟩ := bind_ok h
    obtain ⟨r, hr, h⟩ := bind_ok h
    cases h
    exact .cons ⟨s, hs, by simp [parenS]⟩ (wins_all2 hr)

theorem filled_nil_iff {es : Entries} : Filled [] es ↔ es = [] :=
  ⟨fun h => by cases h; rfl, fun h => h ▸ .nil⟩

theorem rows_filled (off lim : Option Int) :
    Filled [hasRows (c% "OFFSET") off, hasRows (c% "LIMIT") lim] (rowsEntries off lim) := by
  have hl : Filled [hasRows (c% "LIMIT") lim] (match lim with
    | some n => if n ≠ 0 then [(c% "LIMIT", intStr n)] else []
    | none => []) := by
    cases lim with
    | none => exact .absent (by rintro ⟨k, h, _⟩; cases h) .nil
    | some n =>
      by_cases h : n = 0
      · simp only [h, ne_eq, not_true_eq_false, if_false]
        exact .absent (by rintro ⟨k, h', h''⟩; cases h'; exact h'' rfl) .nil
      · simp only [ne_eq, h, not_false_eq_true, if_true]
        exact .present ⟨n, rfl, h⟩ ⟨n, rfl, rfl⟩ .nil
  unfold rowsEntries
  cases off with
  | none => exact .absent (by rintro ⟨k, h, _⟩; cases h) hl
  | some n =>
    by_cases h : n = 0
    · simp only [h, ne_eq, not_true_eq_false, if_false, List.nil_append]
      exact .absent (by rintro ⟨k, h', h''⟩; cases h'; exact h'' rfl) hl
    · simp only [ne_eq, h, not_false_eq_true, if_true]
      exact .present ⟨n, rfl, h⟩ ⟨n, rfl, rfl⟩ hl

theorem spaces_append_rjust (k : Str) (n : Nat) : rjust k n = spaces (n - k.length) ++ k := rfl

/-- The pretty layout of the printer is the specified one. -/
theorem stmtString_layout (es : Entries) (o : Opts) (hne : es ≠ []) :
    stmtString true es o = layout o.mode (maxKeyLen es) es := by
  obtain ⟨m, n⟩ := o
  cases m with
  | default =>
    rw [C21_default_text]
    show _ = join _ _
    congr 1
    apply List.map_congr_left
    intro e _
    unfold clause clauseText
    split <;> simp
  | pretty =>
    cases es with
    | nil => exact absurd rfl hne
    | cons e es =>
      simp only [stmtString, List.isEmpty_cons, Bool.false_eq_true, if_false, lineSep, layout]
      congr 1
      apply List.map_congr_left
      intro a _
      by_cases h : a.2 = []
      · simp [stmtLine, riverText, clauseText, h, rjust, pad, splitlines, splitlinesGo, join]
      · simp only [stmtLine, riverText, clauseText, rjust, and_self, if_true, List.isEmpty_iff, h, if_false]
        split <;> simp

theorem print_layout {es : Entries} {o : Opts} {s : Str} (h : printEntries true es o = .ok s)
    (hne : es ≠ []) : ∃ col, IsMaxKey col es ∧ s = layout o.mode col es := by
  unfold printEntries at h
  rw [C21_entries] at h
  split at h
  · cases h
    exact ⟨_, maxKeyLen_spec es hne, stmtString_layout es o hne⟩
  · cases h

theorem cond_filled {o : Opts} (key : Str) {e : Option Expr} {e' : Option Str} (he : Expr.sqlOpt o e = .ok e')
    {cs rest} (hr : Filled cs rest) : Filled (hasCondition o key e :: cs) (optEntry key e' ++ rest) := by
  cases e with
  | none =>
    cases he
    exact .absent (by simp [hasCondition]) hr
  | some e =>
    rw [Expr_sqlOpt_some] at he
    obtain ⟨t, ht, he⟩ := bind_ok he
    cases he
    exact .present (c := hasCondition o key (some e)) (by simp [hasCondition]) ⟨e, rfl, ht⟩ hr

theorem group_filled {o : Opts} {gb : Option GroupBy} {g : Option Str} (hg : GroupBy.sqlOpt o gb = .ok g)
    {cs rest} (hr : Filled cs rest) :
    Filled (hasGroup o gb :: cs) (optEntry (c% "GROUP") (g.map (c% "BY " ++ ·)) ++ rest) := by
  cases gb with
  | none =>
    cases hg
    exact .absent (by simp [hasGroup]) hr
  | some g' =>
    rw [GroupBy_sqlOpt_some] at hg
    obtain ⟨t, ht, hg⟩ := bind_ok hg
    cases hg
    exact .present (c := hasGroup o (some g')) (by simp [hasGroup]) ⟨g', t, rfl, ht, rfl⟩ hr

theorem from_filled {o : Opts} {fr : Option Rel} {fs : Option Str} (hf : Rel.sqlOpt o fr = .ok fs)
    {cs rest} (hr : Filled cs rest) :
    Filled (hasFrom o fr :: cs) (optEntry (c% "FROM") (fs.map (fromText fr)) ++ rest) := by
  cases fr with
  | none =>
    cases hf
    exact .absent (by simp [hasFrom]) hr
  | some r =>
    rw [Rel_sqlOpt_some] at hf
    obtain ⟨t, ht, hf⟩ := bind_ok hf
    cases hf
    refine .present (c := hasFrom o (some r)) (by simp [hasFrom]) ⟨r, rfl, ?_⟩ hr
    cases r with
    | query q => exact .inr ⟨q, t, rfl, ht, rfl⟩
    | _ => exact .inl ⟨by simp, ht⟩

/-! ## C29: the clauses of a query -/

/-- **C29.** The text of a SELECT, TABLE or VALUES query consists of exactly the clauses that are
set (`Filled`), in SQL order (`clauses`), each once; one after another in default mode, aligned in
pretty mode. -/
theorem C29_clauses_partial (q : Query) (o : Opts) (s : Str) (hq : ∀ k l r d off lim ob w, q ≠ .mk (.set k l r d) off lim ob w)
    (h : q.sql o = .ok s) :
    ∃ es col, Filled (clauses o q) es ∧ IsMaxKey col es ∧ s = layout o.mode col es := by
  obtain ⟨body, off, lim, ob, w⟩ := q
  rw [Query_sql_mk] at h
  cases body with
  | set k l r d => exact absurd rfl (hq k l r d off lim ob w)
  | table t =>
    rw [QBody_sql_table] at h
    obtain ⟨we, hwe, h⟩ := bind_ok h
    obtain ⟨ce, hce, h⟩ := bind_ok h
    obtain ⟨ws, hws, hwe⟩ := bind_ok hwe
    obtain ⟨os, hos, hce⟩ := bind_ok hce
    obtain ⟨oe, hoe, hce⟩ := bind_ok hce
    cases hce
    have hw := fun {cs rest} => listEntry_filled (named_all2 hws) hwe (cs := cs) (rest := rest)
    have ho := listEntry_filled (ords_all2 hos) hoe (rows_filled off lim) (ob ≠ []) Iff.rfl
    obtain ⟨col, hc, rfl⟩ := print_layout h (by simp)
    refine ⟨_, col, ?_, hc, rfl⟩
    rw [List.append_assoc]
    exact hw (.present trivial rfl ho) (w ≠ []) Iff.rfl
  | values es =>
    rw [QBody_sql_values] at h
    obtain ⟨we, hwe, h⟩ := bind_ok h
    obtain ⟨ss, hss, h⟩ := bind_ok h
    obtain ⟨j, hj, h⟩ := bind_ok h
    obtain ⟨ce, hce, h⟩ := bind_ok h
    obtain ⟨ws, hws, hwe⟩ := bind_ok hwe
    obtain ⟨os, hos, hce⟩ := bind_ok hce
    obtain ⟨oe, hoe, hce⟩ := bind_ok hce
    cases hce
    have hw := fun {cs rest} => listEntry_filled (named_all2 hws) hwe (cs := cs) (rest := rest)
    have ho := listEntry_filled (ords_all2 hos) hoe (rows_filled off lim) (ob ≠ []) Iff.rfl
    obtain ⟨col, hc, rfl⟩ := print_layout h (by simp)
    refine ⟨_, col, ?_, hc, rfl⟩
    rw [List.append_assoc]
    have h1 : ListOf o [] (fun e s => e.sql o = .ok s) es j := ⟨ss, j, sqls_all2 hss, hj, rfl⟩
    exact hw (.present (c := ⟨c% "VALUES", True, ListOf o [] (fun e s => e.sql o = .ok s) es⟩)
      trivial h1 ho) (w ≠ []) Iff.rfl
  | select items fr wh gb hv d wins =>
    rw [QBody_sql_select] at h
    obtain ⟨we, hwe, h⟩ := bind_ok h
    obtain ⟨ss, hss, h⟩ := bind_ok h
    obtain ⟨j, hj, h⟩ := bind_ok h
    obtain ⟨fs, hfs, h⟩ := bind_ok h
    obtain ⟨wh', hwh, h⟩ := bind_ok h
    obtain ⟨g, hg, h⟩ := bind_ok h
    obtain ⟨hv', hhv, h⟩ := bind_ok h
    obtain ⟨wss, hwss, h⟩ := bind_ok h
    obtain ⟨wie, hwie, h⟩ := bind_ok h
    obtain ⟨ce, hce, h⟩ := bind_ok h
    obtain ⟨ws, hws, hwe⟩ := bind_ok hwe
    obtain ⟨os, hos, hce⟩ := bind_ok hce
    obtain ⟨oe, hoe, hce⟩ := bind_ok hce
    cases hce
    have hw := fun {cs rest} => listEntry_filled (named_all2 hws) hwe (cs := cs) (rest := rest)
    have ho := listEntry_filled (ords_all2 hos) hoe (rows_filled off lim) (ob ≠ []) Iff.rfl
    obtain ⟨col, hc, rfl⟩ := print_layout h (by simp)
    refine ⟨_, col, ?_, hc, rfl⟩
    have h1 := listEntry_filled (wins_all2 hwss) hwie ho (wins ≠ []) Iff.rfl
    have h2 := cond_filled (c% "HAVING") hhv h1
    have h3 := group_filled hg h2
    have h4 := cond_filled (c% "WHERE") hwh h3
    have h5 := from_filled hfs h4
    have h6 := Filled.present (c := hasSelect o d items) (v := if d then c% "DISTINCT " ++ j else j)
      trivial ⟨ss, j, sqls_all2 hss, hj, by cases d <;> rfl⟩ h5
    have h7 := hw h6 (w ≠ []) Iff.rfl
    simp only [List.append_assoc]
    exact h7

set_option maxRecDepth 4000 in
-- a query with every clause set
example : (Query.mk (.select [.field (c% "a") none .unknown] (some (.table { name := c% "t" }))
      (some (.lit (some (.bool true)) .boolean)) (some (.mk [.set [.field (c% "a") none .unknown]] false))
      (some (.lit (some (.bool false)) .boolean)) true
      [(c% "w", .mk none [] [] .range (.unbounded .preceding) .current)]) (some 2) (some 3)
      [.mk (.field (c% "a") none .unknown) true false]
      [.mk (.query (.mk (.table { name := c% "t" }) none none [] [])) (c% "x") []]).sql dfltOpts =
    .ok (c% "WITH \"x\" AS (TABLE \"t\") SELECT DISTINCT \"a\" FROM \"t\" WHERE TRUE GROUP BY \"a\" HAVING FALSE WINDOW w AS (RANGE BETWEEN UNBOUNDED PRECEDING AND CURRENT ROW) ORDER BY \"a\" DESC OFFSET 2 LIMIT 3") := by
  rfl

/-! ## C28: LIMIT, OFFSET and ORDER BY -/

theorem filled_split : ∀ {cs cs' : List Clause} {es : Entries}, Filled (cs ++ cs') es →
    ∃ e1 e2, es = e1 ++ e2 ∧ Filled cs e1 ∧ Filled cs' e2
  | [], _, es, h => ⟨[], es, rfl, .nil, h⟩
  | c :: cs, cs', es, h => by
    cases h with
    | absent hp h =>
      obtain ⟨e1, e2, rfl, h1, h2⟩ := filled_split h
      exact ⟨e1, e2, rfl, .absent hp h1, h2⟩
    | present hp ht h =>
      obtain ⟨e1, e2, rfl, h1, h2⟩ := filled_split h
      exact ⟨_ :: e1, e2, rfl, .present hp ht h1, h2⟩

theorem join_append (sep : Str) : ∀ {xs ys : List Str}, xs ≠ [] → ys ≠ [] →
    join sep (xs ++ ys) = join sep xs ++ sep ++ join sep ys
  | [], _, h, _ => absurd rfl h
  | [x], y :: ys, _, _ => by simp [join]
  | x :: x2 :: xs, ys, _, h => by
    have := join_append sep (xs := x2 :: xs) (by simp) h
    simp only [List.cons_append, join] at this ⊢
    rw [this]; simp

theorem layout_append (m : Mode) (col : Nat) {e1 e2 : Entries} (h1 : e1 ≠ []) (h2 : e2 ≠ []) :
    layout m col (e1 ++ e2) = layout m col e1 ++ lineSep m ++ layout m col e2 := by
  cases m <;> simp only [layout, List.map_append, lineSep] <;>
    exact join_append _ (by simpa using h1) (by simpa using h2)

theorem count_chars (n : Int) : ∀ c ∈ intStr n, c = '-' ∨ isDigit c = true := by
  intro c hc
  cases n with
  | ofNat k => exact .inr (natStr_digits k c hc)
  | negSucc k =>
    rcases List.mem_cons.mp hc with rfl | hc
    · exact .inl rfl
    · exact .inr (natStr_digits _ c hc)

theorem count_no_break (n : Int) : ∀ c ∈ intStr n, isBreak c = false ∧ c ≠ '\n' := by
  intro c hc
  rcases count_chars n c hc with rfl | h
  · exact ⟨by decide, by decide⟩
  · have h2 := isDigit_bound h
    have key : ∀ m, 48 ≤ m → m ≤ 57 → isBreak (Char.ofNat m) = false ∧ Char.ofNat m ≠ '\n' := by
      intro m h1 h2
      have : m = 48 ∨ m = 49 ∨ m = 50 ∨ m = 51 ∨ m = 52 ∨ m = 53 ∨ m = 54 ∨ m = 55 ∨ m = 56 ∨ m = 57 := by
        omega
      rcases this with h | h | h | h | h | h | h | h | h | h <;> subst h <;> decide
    have := key c.toNat h2.1 h2.2
    rwa [Char.ofNat_toNat] at this

theorem indentBy_flat (k : Nat) : ∀ s : Str, (∀ c ∈ s, c ≠ '\n') → indentBy k s = s
  | [], _ => rfl
  | c :: cs, h => by
    have hc := h c (by simp)
    rw [indentBy, indentBy_flat k cs (fun x hx => h x (List.mem_cons_of_mem _ hx))]
    exact fun e => hc e

theorem pad_count (n : Int) (k : Nat) : pad (intStr n) k = intStr n := by
  have h1 : ∀ c ∈ intStr n, isBreak c = true → c = '\n' := by
    intro c hc hb
    rw [(count_no_break n c hc).1] at hb; cases hb
  have h2 : (intStr n).getLast? ≠ some '\n' :=
    fun h => (count_no_break n _ (List.mem_of_getLast? h)).2 rfl
  rw [pad_plain ⟨h1, h2⟩, indentBy_flat _ _ (fun c hc => (count_no_break n c hc).2)]

theorem count_ne_nil (n : Int) : intStr n ≠ [] := by
  cases n with
  | ofNat k => exact natStr_ne_nil k
  | negSucc k => simp [intStr]

theorem layout_count (m : Mode) (col : Nat) (key : Str) (n : Int) :
    ∃ k, layout m col [(key, intStr n)] = spaces k ++ key ++ c% " " ++ intStr n := by
  cases m with
  | default => exact ⟨0, by simp [layout, clauseText, count_ne_nil, spaces, join]⟩
  | pretty => exact ⟨col - key.length, by simp [layout, riverText, clauseText, pad_count, count_ne_nil, join]⟩

theorem filled_ne : ∀ {cs : List Clause} {es}, Filled cs es → (∃ c ∈ cs, c.present) → es ≠ []
  | _, _, .nil, ⟨_, h, _⟩ => by cases h
  | _, _, .absent hn h, ⟨c, hc, hp⟩ => by
    rcases List.mem_cons.mp hc with rfl | hc
    · exact absurd hp hn
    · exact filled_ne h ⟨c, hc, hp⟩
  | _, _, .present _ _ _, _ => by simp

/-- The clauses before OFFSET and LIMIT are not all absent. -/
theorem clauses_split (body : QBody) (off lim : Option Int) (ob : List Ord) (w : List Named) (o : Opts)
    (hb : ∀ k l r d, body ≠ .set k l r d) :
    ∃ cs, clauses o (.mk body off lim ob w) = cs ++ [hasRows (c% "OFFSET") off, hasRows (c% "LIMIT") lim] ∧
      ∃ c ∈ cs, c.present := by
  cases body with
  | set k l r d => exact absurd rfl (hb k l r d)
  | table t =>
    exact ⟨[hasWith o w, ⟨c% "TABLE", True, fun v => v = t.sql⟩, hasOrder o ob], rfl,
      ⟨c% "TABLE", True, fun v => v = t.sql⟩, by simp, trivial⟩
  | values es =>
    exact ⟨[hasWith o w, ⟨c% "VALUES", True, ListOf o [] (fun e s => e.sql o = .ok s) es⟩, hasOrder o ob],
      rfl, ⟨c% "VALUES", True, ListOf o [] (fun e s => e.sql o = .ok s) es⟩, by simp, trivial⟩
  | select items fr wh gb hv d wins =>
    exact ⟨[hasWith o w, hasSelect o d items, hasFrom o fr, hasCondition o (c% "WHERE") wh, hasGroup o gb,
      hasCondition o (c% "HAVING") hv, hasWindow o wins, hasOrder o ob], rfl,
      hasSelect o d items, by simp, trivial⟩

theorem filled_rows {key : Str} {n : Option Int} {es : Entries} (h : Filled [hasRows key n] es) :
    (es = [] ∧ (n = none ∨ n = some 0)) ∨ ∃ k, n = some k ∧ k ≠ 0 ∧ es = [(key, intStr k)] := by
  cases h with
  | absent hn h =>
    cases h
    refine .inl ⟨rfl, ?_⟩
    cases n with
    | none => exact .inl rfl
    | some k =>
      refine .inr ?_
      by_cases hk : k = 0
      · rw [hk]
      · exact absurd ⟨k, rfl, hk⟩ hn
  | present hp ht h =>
    cases h
    obtain ⟨k, hk, hk0⟩ := hp
    obtain ⟨k', hk', hv⟩ := ht
    rw [hk] at hk'
    cases hk'
    exact .inr ⟨k, hk, hk0, by rw [hv]; rfl⟩

/-- The front of a query's text, then OFFSET and LIMIT. -/
theorem rows_text (body : QBody) (off lim : Option Int) (ob : List Ord) (w : List Named)
    (o : Opts) (s : Str) (hb : ∀ k l r d, body ≠ .set k l r d)
    (h : (Query.mk body off lim ob w).sql o = .ok s) :
    ∃ col e1 e2 e3, s = layout o.mode col (e1 ++ (e2 ++ e3)) ∧ e1 ≠ [] ∧
      Filled [hasRows (c% "OFFSET") off] e2 ∧ Filled [hasRows (c% "LIMIT") lim] e3 := by
  obtain ⟨es, col, hf, -, rfl⟩ := C29_clauses_partial _ o s
    (fun k l r d _ _ _ _ e => hb k l r d (by injection e)) h
  obtain ⟨cs, hcs, hne⟩ := clauses_split body off lim ob w o hb
  rw [hcs] at hf
  obtain ⟨e1, e2, rfl, h1, h2⟩ := filled_split hf
  obtain ⟨e3, e4, rfl, h3, h4⟩ := filled_split (cs := [hasRows (c% "OFFSET") off]) h2
  exact ⟨col, e1, e3, e4, rfl, filled_ne h1 hne, h3, h4⟩

/-- **C28.** A LIMIT other than 0 on a SELECT, TABLE or VALUES query ends its text.  Missing from
the full claim: `C28_zero_lost`, `C28_set_operation_loses_all`. -/
theorem C28_limit_partial (body : QBody) (off : Option Int) (n : Int) (ob : List Ord) (w : List Named)
    (o : Opts) (s : Str) (hb : ∀ k l r d, body ≠ .set k l r d) (hn : n ≠ 0)
    (h : (Query.mk body off (some n) ob w).sql o = .ok s) :
    ∃ front k, s = front ++ lineSep o.mode ++ (spaces k ++ c% "LIMIT" ++ c% " " ++ intStr n) := by
  obtain ⟨col, e1, e2, e3, rfl, h1, -, h3⟩ := rows_text body off (some n) ob w o s hb h
  rcases filled_rows h3 with ⟨-, h4 | h4⟩ | ⟨k, hk, -, rfl⟩
  · cases h4
  · cases h4; exact absurd rfl hn
  · cases hk
    obtain ⟨k', hk'⟩ := layout_count o.mode col (c% "LIMIT") n
    refine ⟨layout o.mode col (e1 ++ e2), k', ?_⟩
    rw [← List.append_assoc, layout_append _ _ (by simp [h1]) (by simp), hk']

/-- **C28.** An OFFSET other than 0 stands in the text, followed by nothing but the limit. -/
theorem C28_offset_partial (body : QBody) (n : Int) (lim : Option Int) (ob : List Ord) (w : List Named)
    (o : Opts) (s : Str) (hb : ∀ k l r d, body ≠ .set k l r d) (hn : n ≠ 0)
    (h : (Query.mk body (some n) lim ob w).sql o = .ok s) :
    ∃ front k tail, s = front ++ lineSep o.mode ++ (spaces k ++ c% "OFFSET" ++ c% " " ++ intStr n) ++ tail ∧
      (tail = [] ∧ (lim = none ∨ lim = some 0) ∨
       ∃ m k', lim = some m ∧ m ≠ 0 ∧
        tail = lineSep o.mode ++ (spaces k' ++ c% "LIMIT" ++ c% " " ++ intStr m)) := by
  obtain ⟨col, e1, e2, e3, rfl, h1, h2, h3⟩ := rows_text body (some n) lim ob w o s hb h
  rcases filled_rows h2 with ⟨-, h4 | h4⟩ | ⟨k, hk, -, rfl⟩
  · cases h4
  · cases h4; exact absurd rfl hn
  cases hk
  obtain ⟨k1, hk1⟩ := layout_count o.mode col (c% "OFFSET") n
  rcases filled_rows h3 with ⟨rfl, h4⟩ | ⟨m, rfl, hm, rfl⟩
  · refine ⟨layout o.mode col e1, k1, [], ?_, .inl ⟨rfl, h4⟩⟩
    rw [List.append_nil, List.append_nil, layout_append _ _ h1 (by simp), hk1]
  · obtain ⟨k2, hk2⟩ := layout_count o.mode col (c% "LIMIT") m
    refine ⟨layout o.mode col e1, k1, _, ?_, .inr ⟨m, k2, rfl, hm, rfl⟩⟩
    rw [layout_append _ _ h1 (by simp), layout_append _ _ (by simp) (by simp), hk1, hk2]
    simp

example : (Query.mk (.table { name := c% "t" }) (some 7) (some 10) [] []).sql ⟨.pretty, 4⟩ =
    .ok (c% " TABLE \"t\"\nOFFSET 7\n LIMIT 10") := by rfl

/-- **C28, negative.** `LIMIT 0` and `OFFSET 0` are never printed, and a set operation prints
none of ORDER BY, OFFSET, LIMIT and WITH. -/
theorem C28_zero_lost (body : QBody) (off lim : Option Int) (ob : List Ord) (w : List Named) (o : Opts) :
    (Query.mk body off (some 0) ob w).sql o = (Query.mk body off none ob w).sql o ∧
    (Query.mk body (some 0) lim ob w).sql o = (Query.mk body none lim ob w).sql o := by
  constructor
  · rw [Query_sql_mk, Query_sql_mk]; rfl
  · rw [Query_sql_mk, Query_sql_mk]; rfl

theorem C28_set_operation_loses_all (k : SetKind) (l r : Query) (d : Bool) (off lim : Option Int)
    (ob : List Ord) (w : List Named) (o : Opts) :
    (Query.mk (.set k l r d) off lim ob w).sql o = (Query.mk (.set k l r d) none none [] []).sql o := by
  show Query.sql o _ = Query.sql o _
  rw [Query_sql_mk, Query_sql_mk, QBody_sql_set, QBody_sql_set]

example : (Query.mk (.set .union (.mk (.table { name := c% "a" }) none none [] [])
    (.mk (.table { name := c% "b" }) none (some 0) [] []) false) (some 1) (some 5) [] []).sql dfltOpts =
    .ok (c% "(TABLE \"a\") UNION ALL (TABLE \"b\")") := by rfl

/-! ## C30: set operations -/

/-- **C30.** The text of a set operation is the left query in parentheses, the keyword, the
quantifier, the right query in parentheses. -/
theorem C30_text (k : SetKind) (l r : Query) (d : Bool) (off lim : Option Int) (ob : List Ord)
    (w : List Named) (o : Opts) (s : Str) (h : (Query.mk (.set k l r d) off lim ob w).sql o = .ok s) :
    ∃ a b sp, l.sql o = .ok a ∧ r.sql o = .ok b ∧
      (sp = match o.mode with | .default => c% " " | .pretty => c% "\n") ∧
      s = c% "(" ++ a ++ c% ")" ++ sp ++
        (match k with | .union => c% "UNION" | .intersect => c% "INTERSECT" | .except => c% "EXCEPT") ++
        (if d then c% " DISTINCT" else c% " ALL") ++ sp ++ c% "(" ++ b ++ c% ")" := by
  rw [Query_sql_mk] at h
  rw [QBody_sql_set] at h
  obtain ⟨a, ha, h⟩ := bind_ok h
  obtain ⟨b, hb, h⟩ := bind_ok h
  cases h
  refine ⟨a, b, spacing o, ha, hb, ?_, ?_⟩
  · unfold spacing; cases o.mode <;> rfl
  · cases k <;> cases d <;> simp [relStr, parenS, SetKind.text, quantText]

/-- **C30.** INTERSECT and EXCEPT can be built with DISTINCT only; UNION takes both quantifiers. -/
theorem C30_quantifier (k : SetKind) (l r : Query) (d : Bool) (tl tr : Ty) (off lim : Option Int)
    (hl : l.check = .ok tl) (hr : r.check = .ok tr) :
    (k ≠ .union → (Query.mk (.set k l r d) off lim [] []).check =
      if d then .ok .unknown else .error .assertion) ∧
    (k = .union → (Query.mk (.set k l r d) off lim [] []).check =
      (Query.mk (.set .union l r true) none none [] []).check) := by
  have e : (Query.mk (.set k l r d) off lim [] []).check = setQueryType k d tl tr := by
    show (QBody.set k l r d).check = _
    rw [QBody_check_set, hl, hr]
    rfl
  have e' : (Query.mk (.set .union l r true) none none [] []).check = setType tl tr := by
    show (QBody.set .union l r true).check = _
    rw [QBody_check_set, hl, hr]
    rfl
  rw [e, e']
  cases k <;> simp [setQueryType]

theorem union_check (l r : Query) (d : Bool) (tl tr : Ty) (off lim : Option Int)
    (hl : l.check = .ok tl) (hr : r.check = .ok tr) :
    (Query.mk (.set .union l r d) off lim [] []).check = setType tl tr := by
  show (QBody.set .union l r d).check = _
  rw [QBody_check_set, hl, hr]
  rfl

/-- A row type. -/
def isRowTy : Ty → Prop
  | .row _ => True
  | _ => False

/-- **C30.** The type of a union with an operand of unknown type is unknown; a row and a single column
cannot be united; two single columns give their common supertype. -/
theorem C30_union_single (l r : Query) (d : Bool) (tl tr : Ty) (off lim : Option Int)
    (hl : l.check = .ok tl) (hr : r.check = .ok tr) :
    ((tl = .unknown ∨ tr = .unknown) → (Query.mk (.set .union l r d) off lim [] []).check = .ok .unknown) ∧
    (tl ≠ .unknown → tr ≠ .unknown → (isRowTy tl ↔ ¬ isRowTy tr) →
      (Query.mk (.set .union l r d) off lim [] []).check = .error .assertion) ∧
    (tl ≠ .unknown → tr ≠ .unknown → ¬ isRowTy tl → ¬ isRowTy tr →
      (Query.mk (.set .union l r d) off lim [] []).check = commonSupertype tl tr) := by
  rw [union_check l r d tl tr off lim hl hr]
  refine ⟨fun h => if_pos h, fun h1 h2 h3 => ?_, fun h1 h2 h3 h4 => ?_⟩
  · have hn : ¬ (tl = .unknown ∨ tr = .unknown) := fun h => h.elim h1 h2
    unfold setType
    rw [if_neg hn]
    cases tl <;> cases tr <;> first | rfl | (exfalso; simp [isRowTy] at h3)
  · have hn : ¬ (tl = .unknown ∨ tr = .unknown) := fun h => h.elim h1 h2
    unfold setType
    rw [if_neg hn]
    cases tl <;> first | exact absurd trivial h3 | (cases tr <;> first | exact absurd trivial h4 | rfl)

-- `SELECT x UNION SELECT y` with `x` of unknown type
example : (Query.mk (.set .union (.mk (.select [.field (c% "x") none .unknown] none none none none false []) none none [] [])
    (.mk (.select [.field (c% "y") none .bigint] none none none none false []) none none [] []) true) none none [] []).check =
    .ok .unknown := by rfl

theorem commonRow_all2 : ∀ {ls rs ts : List Ty}, ls.length = rs.length → commonRow ls rs = .ok ts →
    All2 (fun p t => commonSupertype p.1 p.2 = .ok t) (ls.zip rs) ts
  | [], [], ts, _, h => by cases h; exact .nil
  | a :: as, b :: bs, ts, hl, h => by
    rw [commonRow] at h
    obtain ⟨t, ht, h⟩ := bind_ok h
    obtain ⟨r, hr, h⟩ := bind_ok h
    cases h
    exact .cons ht (commonRow_all2 (by simpa using hl) hr)

/-- **C30.** The type of a union of two queries with the same number of known columns is the row of
the common supertypes, column by column. -/
theorem C30_union_type_partial (ls rs : List Ty) (l r : Query) (d : Bool) (t : Ty)
    (hl : l.check = .ok (.row ls)) (hr : r.check = .ok (.row rs)) (hlen : ls.length = rs.length)
    (h : (Query.mk (.set .union l r d) none none [] []).check = .ok t) :
    ∃ ts, t = .row ts ∧ All2 (fun p u => commonSupertype p.1 p.2 = .ok u) (ls.zip rs) ts := by
  rw [union_check l r d _ _ none none hl hr] at h
  simp only [setType] at h
  obtain ⟨ts, hts, h⟩ := bind_ok h
  cases h
  exact ⟨ts, rfl, commonRow_all2 hlen hts⟩

/-- **C30, negative.** Unions of queries with different numbers of columns are accepted: the
columns without a counterpart are dropped.  INTERSECT and EXCEPT never have a known type. -/
theorem C30_column_count_unchecked :
    ∃ l r : Query, l.check = .ok (.row [.bigint, .boolean]) ∧
      r.check = .ok (.row [.bigint, .boolean, .double]) ∧
      (Query.mk (.set .union l r true) none none [] []).check = .ok (.row [.bigint, .boolean]) :=
  ⟨.mk (.select [.field (c% "a") none .bigint, .field (c% "b") none .boolean] none none none none false [])
      none none [] [],
    .mk (.select [.field (c% "a") none .bigint, .field (c% "b") none .boolean, .field (c% "c") none .double]
      none none none none false []) none none [] [], by rfl, by rfl, by rfl⟩

end Treeno.Props
