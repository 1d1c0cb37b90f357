import Verif.Spec.Clauses
import Verif.Props.RoundTripProps
import Verif.Props.RoundTripLimits
import Verif.Props.QueryProps
import Verif.Lemmas.Krfl
/-!
# C44, C45, C46: order terms, groupings and windows
-/
set_option autoImplicit false
namespace Treeno.Props
open Treeno Treeno.Spec

/-! ## C44: order terms -/

/-- **C44 (text).** An order term is printed as its value followed by the shortest suffix. -/
theorem C44_text (v : Expr) (d nf : Bool) (o : Opts) (s : Str) (h : (Ord.mk v d nf).sql o = .ok s) :
    ∃ t, v.sql o = .ok t ∧ s = (WrittenTerm.mk v t (leastDir d) (leastNulls nf)).full := by
  rw [Ord_sql_mk] at h
  obtain ⟨t, ht, h⟩ := bind_ok h
  cases h
  refine ⟨t, ht, ?_⟩
  cases d <;> cases nf <;> rfl

/-- **C44.** The suffix tells the terms with one value apart. -/
theorem C44_distinct (v : Expr) (d nf d' nf' : Bool) (o : Opts) (s : Str) (h : (Ord.mk v d nf).sql o = .ok s)
    (h' : (Ord.mk v d' nf').sql o = .ok s) : d = d' ∧ nf = nf' := by
  obtain ⟨t, ht, rfl⟩ := C44_text v d nf o s h
  obtain ⟨t', ht', e⟩ := C44_text v d' nf' o _ h'
  rw [ht] at ht'
  cases ht'
  simp only [WrittenTerm.full, List.append_assoc] at e
  have e := List.append_cancel_left e
  cases d <;> cases nf <;> cases d' <;> cases nf' <;> first | exact ⟨rfl, rfl⟩ | exact absurd e (by decide)

def dirTok : Dir → Option Tok
  | .silent => none
  | .asc => some (kwT (c% "ASC"))
  | .desc => some (kwT (c% "DESC"))
def nullsTok : Nulls → Option Tok
  | .silent => none
  | .first => some (kwT (c% "FIRST"))
  | .last => some (kwT (c% "LAST"))
def termCst (w : WrittenTerm) : CSort := .mk (w.value.cst false) (dirTok w.dir) (nullsTok w.nulls)

theorem tx_term {w : WrittenTerm} (h : w.Ok) :
    Tx w.full ((w.value.cst false).yield ++ ((dirTok w.dir).toList ++ optPart [kwT (c% "NULLS")] ((nullsTok w.nulls).map fun x => [x]))) := by
  obtain ⟨ht, -, -, o, hs⟩ := h
  have h1 : Tx w.text (w.value.cst false).yield := by
    have := tx_expr w.value false false ht o _ hs
    rwa [itemToks_false ht] at this
  obtain ⟨v, t, d, n⟩ := w
  have h2 : Tx (t ++ d.text) ((v.cst false).yield ++ (dirTok d).toList) := by
    cases d with
    | silent => simpa [Dir.text, dirTok] using h1
    | asc => exact h1.post (Px.litW (c% " ASC") [kwT (c% "ASC")] (by decide +kernel)) rfl (Ends.of rfl)
    | desc => exact h1.post (Px.litW (c% " DESC") [kwT (c% "DESC")] (by decide +kernel)) rfl (Ends.of rfl)
  rw [← List.append_assoc]
  show Tx (t ++ d.text ++ n.text) _
  cases n with
  | silent => simpa [Nulls.text, nullsTok, optPart] using h2
  | first => exact h2.post (Px.litW (c% " NULLS FIRST") [kwT (c% "NULLS"), kwT (c% "FIRST")] (by decide +kernel)) rfl (Ends.of rfl)
  | last => exact h2.post (Px.litW (c% " NULLS LAST") [kwT (c% "NULLS"), kwT (c% "LAST")] (by decide +kernel)) rfl (Ends.of rfl)

theorem tx_terms : ∀ ws : List WrittenTerm, (∀ w ∈ ws, w.Ok) → TxL (ws.map WrittenTerm.full) (CSort.yields (ws.map termCst))
  | [], _ => .nil
  | w :: ws, h => .cons (tx_term (h w (by simp))) (tx_terms ws fun x hx => h x (List.mem_cons_of_mem _ hx))

theorem pl_terms : ∀ ws : List WrittenTerm, (∀ w ∈ ws, w.Ok) → CSort.Plains (ws.map termCst)
  | [], _ => trivial
  | w :: ws, h => by
    obtain ⟨ht, hf, -, -⟩ := h w (by simp)
    refine ⟨pl_expr _ false ht hf false, ?_, ?_, pl_terms ws fun x hx => h x (List.mem_cons_of_mem _ hx)⟩
    · cases w.dir <;> intro t e <;> cases e <;> exact kwIn (by simp)
    · cases w.nulls <;> intro t e <;> cases e <;> exact kwIn (by simp)

theorem cv_terms : ∀ ws : List WrittenTerm, (∀ w ∈ ws, w.Ok) → CSort.convs (ws.map termCst) = .ok (ws.map WrittenTerm.term)
  | [], _ => rfl
  | w :: ws, h => by
    obtain ⟨ht, hf, ⟨t, hc⟩, -⟩ := h w (by simp)
    refine ebind (kid ht hc (cv_expr _ false ht hf false nofun)) (ebind (cv_terms ws fun x hx => h x (List.mem_cons_of_mem _ hx)) ?_)
    obtain ⟨v, t, d, n⟩ := w
    cases d <;> cases n <;> rfl

/-- Texts with a comma and a blank between them. -/
theorem tx_list {ss tss} (h : TxL ss tss) (hne : ss ≠ []) : Tx (join (c% ", ") ss) (commas tss) := by
  have h1 := tx_loop (d := c% ", ") (td := [symT (c% ",")]) (Px.lit _ _ (by decide +kernel)) rfl .default 0 h hne true 0
  have e : ∀ (l : List Str) b n, joinLoop .default 0 b n l = l := by
    intro l
    induction l with
    | nil => intro b n; rfl
    | cons x l ih =>
      intro b n
      simp [joinLoop, ih]
  rw [e, sepToks_one] at h1
  exact ⟨h1.1, h1.2.1, h1.2.2 rfl⟩

/-- **C44 (reading).** After any query without ORDER BY, OFFSET and LIMIT, a list of order terms is read
as the terms that are meant: ascending unless DESC is written, nulls last unless NULLS FIRST is written. -/
theorem C44_reading (b : QBody) (w : List Named) (o : Opts) (s : Str) (t : Ty) (ws : List WrittenTerm)
    (ht : (Query.mk b none none [] w).Tidy) (hf : (Query.mk b none none [] w).Fits) (hc : (Query.mk b none none [] w).reread.check = .ok t)
    (hs : (Query.mk b none none [] w).sql o = .ok s) (hw : ∀ x ∈ ws, x.Ok) (hne : ws ≠ []) :
    queryFromSql (s ++ c% " ORDER BY " ++ join (c% ", ") (ws.map WrittenTerm.full)) =
      .ok (some (.mk b.reread none none (ws.map WrittenTerm.term) (Named.rereads w))) := by
  have h1 := tx_queries _ ht o s hs
  have hp := pl_query _ ht hf
  have hv := cv_query _ ht hf t hc
  have hb : b.isSet = false := by
    rw [Query_Fits_mk] at hf
    rw [Query_Tidy_mk] at ht
    exact (pl_body b ht.1 hf.1).2
  rw [Query_cst_mk, hb] at h1 hp hv
  have hne' : ws.map termCst ≠ [] := by simpa using hne
  have h2 : Tx (s ++ c% " ORDER BY " ++ join (c% ", ") (ws.map WrittenTerm.full))
      (CQ.mk false (Named.csts w) (.mk b.cst (ws.map termCst) none .none)).yield := by
    refine (h1.infix (Px.lit (c% " ORDER BY ") [kwT (c% "ORDER"), kwT (c% "BY")] (by decide +kernel)) rfl
      (tx_list (tx_terms ws hw) (by simpa using hne))).cast ?_
    have e : orderPart (CSort.yields (ws.map termCst)) = [kwT (c% "ORDER"), kwT (c% "BY")] ++ commas (CSort.yields (ws.map termCst)) := by
      cases ws with
      | nil => exact absurd rfl hne
      | cons x xs => rfl
    show (CQ.mk false (Named.csts w) (.mk b.cst [] none .none)).yield ++ _ = _
    rw [CQ_yield_mk, CQ_yield_mk, CQN_yield_mk, CQN_yield_mk, e]
    simp [orderPart, Spec.clause, CSort_yields_nil, offsetPart, CLimit.yield]
  have h3 : (CQ.mk false (Named.csts w) (.mk b.cst (ws.map termCst) none .none)).Plain := by
    have hp : (CQ.mk false (Named.csts w) (.mk b.cst [] none .none)).Plain := hp
    rw [CQ_Plain_mk, CQN_Plain_mk] at hp ⊢
    exact ⟨hp.1, hp.2.1, hp.2.2.1, pl_terms ws hw, hp.2.2.2.2⟩
  rw [C53_query_complete _ _ h3 h2.toks]
  rw [Query_Tidy_mk] at ht
  rw [Query_Fits_mk] at hf
  rw [Query_reread_mk, Query_check_mk] at hc
  obtain ⟨u1, h4, hc⟩ := bind_ok hc
  obtain ⟨u2, -, hc⟩ := bind_ok hc
  exact query_tail (off := none) (lim := none) (cv_body b ht.1 hf.1 t hc).1 (cv_terms ws hw) (cv_withs w ht.2.2.2.2 hf.2.2 h4) nofun nofun

/-- The terms of a list, as printed. -/
theorem written_terms {o : Opts} : ∀ (xs : List Ord) (ts : List Str), Ord.Tidys xs → Ord.Fitss xs → ∀ {u}, Ord.checks (Ord.rereads xs) = .ok u →
    Ord.sqls o xs = .ok ts → ∃ ws : List WrittenTerm, (∀ w ∈ ws, w.Ok) ∧ ws.map WrittenTerm.full = ts ∧ ws.map WrittenTerm.term = Ord.rereads xs
  | [], ts, _, _, _, _, h => by
    rw [Ord_sqls_nil] at h
    cases h
    exact ⟨[], nofun, rfl, rfl⟩
  | .mk v d nf :: xs, ts, ht, hf, u, hc, h => by
    rw [Ord_Tidys_cons, Ord_Tidy_mk] at ht
    rw [Ord_Fitss_cons, Ord_Fits_mk] at hf
    rw [Ord_rereads_cons, Ord_reread_mk, Ord_checks_cons] at hc
    obtain ⟨t1, h1, hc⟩ := bind_ok hc
    rw [Ord_sqls_cons] at h
    obtain ⟨a, ha, h⟩ := bind_ok h
    obtain ⟨r, hr, h⟩ := bind_ok h
    cases h
    obtain ⟨ws, w1, w2, w3⟩ := written_terms xs r ht.2 hf.2 hc hr
    obtain ⟨t, hv, rfl⟩ := C44_text v d nf o a ha
    refine ⟨⟨v, t, leastDir d, leastNulls nf⟩ :: ws, ?_, by rw [List.map_cons, w2], ?_⟩
    · intro w hw
      rcases List.mem_cons.1 hw with rfl | hw
      · exact ⟨ht.1, hf.1, ⟨_, h1⟩, o, hv⟩
      · exact w1 w hw
    · rw [List.map_cons, w3, Ord_rereads_cons, Ord_reread_mk]
      cases d <;> cases nf <;> rfl

/-- **C44 (recovery).** The printed terms, after any query, are read back as the same terms.  Missing: values that are
themselves not read back (C13). -/
theorem C44_recovered_partial (b : QBody) (w : List Named) (o o' : Opts) (s : Str) (t : Ty) (xs : List Ord) (ts : List Str)
    (ht : (Query.mk b none none [] w).Tidy) (hf : (Query.mk b none none [] w).Fits) (hc : (Query.mk b none none [] w).reread.check = .ok t)
    (hs : (Query.mk b none none [] w).sql o = .ok s) (hx : Ord.Tidys xs) (hy : Ord.Fitss xs) (hz : Ord.checks (Ord.rereads xs) = .ok ())
    (hxs : Ord.sqls o' xs = .ok ts) (hne : xs ≠ []) :
    queryFromSql (s ++ c% " ORDER BY " ++ join (c% ", ") ts) = .ok (some (.mk b.reread none none (Ord.rereads xs) (Named.rereads w))) := by
  obtain ⟨ws, w1, w2, w3⟩ := written_terms xs ts hx hy hz hxs
  rw [← w2, ← w3]
  refine C44_reading b w o s t ws ht hf hc hs w1 ?_
  rintro rfl
  cases xs with
  | nil => exact hne rfl
  | cons x xs => rw [Ord_rereads_cons] at w3; exact nomatch w3

/-- `SELECT 1` -/
def one : QBody := .select [num 1] none none none none false []

/-- Terms of all kinds. -/
def someTerms : List WrittenTerm :=
  [⟨col (c% "a"), c% "\"a\"", .silent, .silent⟩, ⟨.bin .add (col (c% "a")) (num 1), c% "\"a\" + 1", .asc, .first⟩,
   ⟨.not (.isNull (col (c% "b"))), c% "\"b\" IS NOT NULL", .desc, .last⟩]

theorem someTerms_ok : ∀ w ∈ someTerms, w.Ok := by
  intro w hw
  simp only [someTerms, List.mem_cons, List.not_mem_nil, or_false] at hw
  rcases hw with rfl | rfl | rfl
  · exact ⟨by decide +kernel, by decide +kernel, ⟨_, rfl⟩, {}, rfl⟩
  · exact ⟨by decide +kernel, by decide +kernel, ⟨_, rfl⟩, {}, rfl⟩
  · exact ⟨by decide +kernel, by decide +kernel, ⟨_, rfl⟩, {}, rfl⟩

theorem C44_reached : queryFromSql (c% "SELECT 1 ORDER BY \"a\", \"a\" + 1 ASC NULLS FIRST, \"b\" IS NOT NULL DESC NULLS LAST") =
    .ok (some (.mk one none none [.mk (col (c% "a")) false false, .mk (.bin .add (col (c% "a")) (num 1)) false true,
      .mk (.not (.isNull (col (c% "b")))) true false] [])) :=
  C44_reading one [] {} (c% "SELECT 1") _ someTerms (by decide +kernel) (by decide +kernel) rfl rfl someTerms_ok nofun

/-! ## C45: groupings -/

/-- **C45.** A printed grouping is read back: the same kinds of groups, with the same values in the same
order.  Missing: `C45_row_lost`; a group of one expression whose text begins with a parenthesis (`Fits`). -/
theorem C45_recovered_partial (g : GroupBy) (o : Opts) (s : Str) (ht : g.Tidy) (hf : g.Fits) (hc : g.reread.check = .ok ())
    (hs : g.sql o = .ok s) :
    queryFromSql (c% "SELECT 1 GROUP BY " ++ s) = .ok (some (.mk (.select [num 1] none none (some g.reread) none false []) none none [] [])) := by
  obtain ⟨gs, d⟩ := g
  have ht' := ht
  rw [GroupBy_Tidy_mk] at ht
  have h1 := tx_groupBy ht.1 (tx_grps gs ht.2) hs
  let q : Query := .mk (.select [num 1] none none (some (.mk gs d)) none false []) none none [] []
  have hq : q.Tidy := ⟨⟨nofun, ⟨trivial, trivial⟩, trivial, trivial, ht', trivial, trivial⟩, nofun, nofun, trivial, trivial⟩
  have hq' : q.Fits := ⟨⟨⟨trivial, trivial⟩, trivial, trivial, hf, trivial, trivial, List.nodup_nil⟩, trivial, trivial⟩
  have hcc : ∃ t, q.reread.check = .ok t := by
    refine ⟨selectType [(.simple .integer)], ?_⟩
    show (Query.mk (.select [num 1] none none (some (GroupBy.mk gs d).reread) none false []) none none [] []).check = _
    rw [Query_check_mk, QBody_check_select]
    refine ebind (a := ()) rfl (ebind (a := ()) rfl (ebind (a := [.simple .integer]) rfl (ebind (a := ()) rfl (ebind (a := ()) rfl
      (ebind (a := ()) ?_ (ebind (a := ()) rfl (ebind (a := ()) rfl rfl)))))))
    exact hc
  obtain ⟨t, hcc⟩ := hcc
  have h2 : Tx (c% "SELECT 1 GROUP BY " ++ s) q.cst.yield := by
    have h0 := (Tx.pre (Px.lit (c% "SELECT ") [kwT (c% "SELECT")] (by decide +kernel)) rfl (Tx.nat 1)).infix
      (Px.lit (c% " GROUP BY ") [kwT (c% "GROUP"), kwT (c% "BY")] (by decide +kernel)) rfl h1
    refine h0.cast ?_
    show _ = (CQ.mk false [] (.mk (.spec none [.expr (.num false ⟨.int, c% "1"⟩) false none] [] none (groupQuant (some (.mk gs d))) (Grp.csts gs) none []) [] none .none)).yield
    rw [CQ_yield_mk, CQN_yield_mk, CQT_yield_spec]
    cases gs with
    | nil => exact absurd rfl ht.1
    | cons g gs =>
      simp only [CSort_yields_nil, CNamed_yields_nil, CItem_yields_cons, CItem_yields_nil, CItem_yield_expr, CE_yield_num, CR_yields_nil, CWinDef_yields_nil, CE_yieldOpt_none, Grp_csts_cons, CGrp_yields_cons]
      simp [Spec.clause, orderPart, offsetPart, CLimit.yield, optPart, commas, sepBy, aliasPart, flag]
      rfl
  rw [C53_query_complete _ _ (pl_query q hq hq') h2.toks]
  exact cv_query q hq hq' t hcc

/-- All kinds of groups. -/
def someGroups : GroupBy :=
  .mk [.set [col (c% "a")], .set [], .set [col (c% "a"), .bin .add (col (c% "b")) (num 1)], .sets [[], [col (c% "a")], [col (c% "a"), col (c% "b")]],
    .cube [col (c% "a"), col (c% "c")], .rollup [.func .lower [col (c% "d")]]] true

theorem C45_reached : ∃ s, someGroups.sql {} = .ok s ∧
    queryFromSql (c% "SELECT 1 GROUP BY " ++ s) = .ok (some (.mk (.select [num 1] none none (some someGroups) none false []) none none [] [])) := by
  refine ⟨c% "DISTINCT \"a\",(),(\"a\",\"b\" + 1),GROUPING SETS ((),\"a\",(\"a\",\"b\")),CUBE (\"a\",\"c\"),ROLLUP (LOWER(\"d\"))", rfl, ?_⟩
  exact C45_recovered_partial someGroups {} _ (by decide +kernel) (by decide +kernel) rfl rfl

/-- **C45 is false in general**: a group that is one row of two values has the text of a group of two
values. -/
theorem C45_row_lost : let g := GroupBy.mk [.set [.row [col (c% "a"), col (c% "b")]]] false
    let g' := GroupBy.mk [.set [col (c% "a"), col (c% "b")]] false
    g.check = .ok () ∧ g.sql {} = .ok (c% "(\"a\",\"b\")") ∧
    queryFromSql (c% "SELECT 1 GROUP BY (\"a\",\"b\")") = .ok (some (.mk (.select [num 1] none none (some g') none false []) none none [] [])) := by
  refine ⟨rfl, rfl, ?_⟩
  exact C45_recovered_partial (.mk [.set [col (c% "a"), col (c% "b")]] false) {} _ (by decide +kernel) (by decide +kernel) rfl rfl

/-- A group that is one query loses its parentheses: what is read from `GROUP BY (SELECT 2)` is printed as
`SELECT 2`. -/
theorem C45_subquery_lost : let g := GroupBy.mk [.set [.query (.mk (.select [num 2] none none none none false []) none none [] [])]] false
    queryFromSql (c% "SELECT 1 GROUP BY (SELECT 2)") = .ok (some (.mk (.select [num 1] none none (some g) none false []) none none [] [])) ∧
    g.check = .ok () ∧ g.sql {} = .ok (c% "SELECT 2") :=
  ⟨query_of_parserN 60 (by krfl), rfl, rfl⟩

/-! ## C46: windows -/

theorem bound_text {b : Bound} {o : Opts} {s : Str} (h : b.sql o = .ok s) : BoundText o b s := by
  cases b with
  | bounded t e =>
    rw [Bound_sql_bounded] at h
    obtain ⟨x, hx, h⟩ := bind_ok h
    cases h
    exact ⟨x, hx, by cases t <;> rfl⟩
  | unbounded t => cases h; show _ = _; cases t <;> rfl
  | current => cases h; rfl

/-- **C46 (text).** The text of a window consists of exactly the parts that are set, in the order parent,
PARTITION BY, ORDER BY, frame, each once. -/
theorem C46_text (w : Win) (o : Opts) (s : Str) (h : w.sql o = .ok s) :
    ∃ es col, Filled (windowClauses o w) es ∧ IsMaxKey col es ∧ s = layout o.mode col es := by
  obtain ⟨p, ob, ps, f, st, en⟩ := w
  rw [Win_sql_mk] at h
  obtain ⟨xs, hxs, h⟩ := bind_ok h
  obtain ⟨pae, hpa, h⟩ := bind_ok h
  obtain ⟨os, hos, h⟩ := bind_ok h
  obtain ⟨obe, hob, h⟩ := bind_ok h
  obtain ⟨a, ha, h⟩ := bind_ok h
  obtain ⟨b, hb, h⟩ := bind_ok h
  have h3 : Filled [(⟨frameWord f, True, fun v => ∃ a b, BoundText o st a ∧ BoundText o en b ∧ v = c% "BETWEEN " ++ a ++ c% " AND " ++ b⟩ : Clause)]
      [(f.text, join (c% " ") [c% "BETWEEN", a, c% "AND", b])] := by
    have : f.text = frameWord f := by cases f <;> rfl
    rw [this]
    refine .present (c := ⟨frameWord f, True, _⟩) trivial ⟨a, b, bound_text ha, bound_text hb, ?_⟩ .nil
    simp [join]
  have h2 := listEntry_filled (ords_all2 hos) hob h3 (ob ≠ []) Iff.rfl
  have h1 := listEntry_filled (sqls_all2 hxs) hpa h2 (ps ≠ []) Iff.rfl
  have h0 : Filled (windowClauses o (.mk p ob ps f st en)) (parentEntry p ++ (pae ++ (obe ++ [(f.text, join (c% " ") [c% "BETWEEN", a, c% "AND", b])]))) := by
    cases p with
    | none => exact .absent (by simp) h1
    | some p =>
      cases p with
      | nil => exact .absent (by simp) h1
      | cons x p => exact .present (c := ⟨x :: p, _, _⟩) ⟨x, p, rfl⟩ rfl h1
  rw [List.append_assoc, List.append_assoc] at h
  obtain ⟨col, h4, h5⟩ := print_layout h (by simp)
  exact ⟨_, col, h0, h4, h5⟩

/-- **C46 (recovery).** A printed window is read back as the same window: here behind OVER.  Missing: values
that are themselves not read back (C13), parent names that are keywords, and `C46_parent_clash`. -/
theorem C46_recovered_partial (w : Win) (o : Opts) (s : Str) (ht : w.Tidy) (hf : w.Fits) (hc : w.reread.check = .ok ()) (hs : w.sql o = .ok s) :
    expressionFromSql (c% "COUNT(*) OVER (" ++ s ++ c% ")") = .ok (.agg .count [.star none .unknown] [] none (some w.reread) false) := by
  let e : Expr := .agg .count [.star none .unknown] [] none (some w) false
  have he : e.Tidy false := ⟨⟨⟨rfl, nofun⟩, trivial⟩, fun _ => ⟨rfl, rfl⟩, nofun, trivial, trivial, ht⟩
  have he' : e.Fits := ⟨⟨nofun, trivial⟩, trivial, trivial, hf, nofun, nofun⟩
  have h2 : Tx (c% "COUNT(*) OVER (" ++ s ++ c% ")") (e.cst false).yield := by
    refine (Tx.pre (Px.lit (c% "COUNT(*) OVER ") [kwT (c% "COUNT"), symT (c% "("), symT (c% "*"), symT (c% ")"), kwT (c% "OVER")] (by decide +kernel)) rfl
      (tx_wins w ht o s hs)).cast ?_
    show _ = (CE.callStar [wordOf (c% "COUNT")] none none (some w.cst)).yield
    rw [CE_yield_callStar]
    rfl
  rw [C53_expression_complete _ _ (pl_expr e false he he' false) h2.toks]
  refine kid (t := .simple .bigint) he ?_ (cv_expr e false he he' false nofun)
  show (Expr.agg .count [.star none .unknown] [] none (some w.reread) false).check = _
  rw [Expr_check_agg]
  exact ebind (a := [.unknown]) rfl (ebind (a := ()) rfl (ebind (a := ()) rfl (ebind (a := ()) hc rfl)))

/-- A window with all parts. -/
def someWindow : Win :=
  .mk (some (c% "w")) [.mk (col (c% "a")) true false, .mk (col (c% "b")) false true] [col (c% "c"), .bin .mod (col (c% "d")) (num 2)] .rows
    (.bounded .preceding (num 3)) (.unbounded .following)

theorem C46_reached : ∃ s, someWindow.sql { mode := .pretty } = .ok s ∧
    expressionFromSql (c% "COUNT(*) OVER (" ++ s ++ c% ")") = .ok (.agg .count [.star none .unknown] [] none (some someWindow) false) := by
  refine ⟨_, rfl, ?_⟩
  exact C46_recovered_partial someWindow { mode := .pretty } _ (by decide +kernel) (by decide +kernel) rfl rfl

/-- **C46.** The name of a window behind OVER, without parentheses, is read as a window with that parent and nothing else. -/
theorem C46_over_name (s : Str) (t : Tok) (n : Str) (hw : Word t) (hn : identText t = .ok n)
    (ht : toks s = [kwT (c% "COUNT"), symT (c% "("), symT (c% "*"), symT (c% ")"), kwT (c% "OVER"), t]) :
    expressionFromSql s = .ok (.agg .count [.star none .unknown] [] none
      (some (.mk (some n) [] [] .range (.unbounded .preceding) .current)) false) := by
  have hk : Word (kwT (c% "COUNT")) := ⟨.inr (.inr (.inr (.inr ⟨rfl, by decide +kernel⟩))), fun _ => by decide +kernel⟩
  have hp : (CE.callStar [kwT (c% "COUNT")] none none (some (.ref t))).Plain := by
    rw [CE_Plain_callStar, CWin_PlainOpt_some, CWin_Plain_ref]
    exact ⟨by simp, fun x hx => by simp at hx; exact hx ▸ hk, nofun, trivial, hw⟩
  rw [C53_expression_complete s _ hp (by rw [ht, CE_yield_callStar, CWin_yieldOpt_some, CWin_yield_ref]; rfl),
    CE_conv_callStar, CWin_convOpt_some, CWin_conv_ref, hn]
  rfl

example : expressionFromSql (c% "COUNT(*) OVER win") = .ok (.agg .count [.star none .unknown] [] none
      (some (.mk (some (c% "win")) [] [] .range (.unbounded .preceding) .current)) false) :=
  C46_over_name _ ⟨.ident, c% "win"⟩ _ ⟨.inl rfl, fun h => by cases h⟩ rfl (by rfl)

/-- **C46 is false in general**: a parent window that is named like a part of the window cannot be
printed. -/
theorem C46_parent_clash : (Win.mk (some (c% "RANGE")) [] [] .range (.unbounded .preceding) .current).check = .ok () ∧
    (Win.mk (some (c% "RANGE")) [] [] .range (.unbounded .preceding) .current).sql {} = .error .assertion := ⟨rfl, rfl⟩

end Treeno.Props
