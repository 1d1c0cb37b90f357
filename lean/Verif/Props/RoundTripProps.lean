import Verif.Lemmas.CstConv
import Verif.Lemmas.Deciding
import Verif.Props.ParseProps
/-!
# C13, C27: printing and reading back

`Tidy` (Spec/Tidy.lean) restricts names, strings and numbers, `Fits` (Spec/Fits.lean) asks that every operand
is put in parentheses or binds tightly enough for its place in the grammar, `reread` (Spec/Reread.lean) is
the tree up to the identifications.
-/
set_option autoImplicit false
namespace Treeno.Props
open Spec

/-- **C13.** Reading the text of an expression, printed in either mode and with any indentation, gives the
expression up to the identifications.  `hc`: the identified tree can be built (the constructors of some
functions reject operands whose type is not known any more, `C13_types_forgotten`).  Missing: trees that are
not `Tidy` or do not `Fit`; the theorems below show that the claim fails for some of them. -/
theorem C13_round_trip_partial (e : Expr) (o : Opts) (s : Str) (t : Ty) (ht : e.Tidy false) (hf : e.Fits)
    (hc : e.reread.check = .ok t) (hs : e.sql o = .ok s) : expressionFromSql s = .ok e.reread := by
  rw [C53_expression_complete s (e.cst false) (pl_expr e false ht hf false) (toks_expr ht hs)]
  exact kid ht hc (cv_expr e false ht hf false nofun)

/-- **C13 (exact).** An expression in which nothing is to be identified is read back exactly. -/
theorem C13_exact_partial (e : Expr) (o : Opts) (s : Str) (t : Ty) (ht : e.Tidy false) (hf : e.Fits)
    (hr : e.reread = e) (hc : e.check = .ok t) (hs : e.sql o = .ok s) : expressionFromSql s = .ok e := by
  have := C13_round_trip_partial e o s t ht hf (by rw [hr]; exact hc) hs
  rwa [hr] at this

/-- **C13.** Two expressions with the same text are the same up to the identifications. -/
theorem C13_text_determines_tree_partial (e e' : Expr) (o o' : Opts) (s : Str) (t t' : Ty) (ht : e.Tidy false) (hf : e.Fits)
    (hc : e.reread.check = .ok t) (ht' : e'.Tidy false) (hf' : e'.Fits) (hc' : e'.reread.check = .ok t')
    (hs : e.sql o = .ok s) (hs' : e'.sql o' = .ok s) : e.reread = e'.reread := by
  have h1 := C13_round_trip_partial e o s t ht hf hc hs
  rw [C13_round_trip_partial e' o' s t' ht' hf' hc' hs'] at h1
  exact (Except.ok.inj h1).symm

/-- **C27.** Reading the text of a query, printed in either mode and with any indentation, gives the query up
to the identifications.  Missing: trees that are not `Tidy` or do not `Fit`, in particular all set
operations (`C27_set_operation_false`). -/
theorem C27_round_trip_partial (q : Query) (o : Opts) (s : Str) (t : Ty) (ht : q.Tidy) (hf : q.Fits)
    (hc : q.reread.check = .ok t) (hs : q.sql o = .ok s) : queryFromSql s = .ok (some q.reread) := by
  rw [C53_query_complete s q.cst (pl_query q ht hf) (toks_query ht hs)]
  exact cv_query q ht hf t hc

/-- **C27 (exact).** -/
theorem C27_exact_partial (q : Query) (o : Opts) (s : Str) (t : Ty) (ht : q.Tidy) (hf : q.Fits)
    (hr : q.reread = q) (hc : q.check = .ok t) (hs : q.sql o = .ok s) : queryFromSql s = .ok (some q) := by
  have := C27_round_trip_partial q o s t ht hf (by rw [hr]; exact hc) hs
  rwa [hr] at this

/-! ## The hypotheses are met -/

def col (n : Str) : Expr := .field n none .unknown
def tcol (t n : Str) : Expr := .field n (some t) .unknown
def num (n : Int) : Expr := litOf (some (.int n))
def text (s : Str) : Expr := litOf (some (.str s))

/-- `(t.x + 1) * -2 >= 1.25 AND NOT (a OR b IS NULL) AND c[1] NOT LIKE 'x%' ESCAPE '!' OR …` -/
def bigExpr : Expr :=
  .bin .or
    (.bin .and
      (.bin .and (.bin .ge (.bin .mul (.bin .add (tcol (c% "t") (c% "x")) (num 1)) (num (-2))) (litOf (some (.dec ⟨false, 125, -2⟩))))
        (.not (.bin .or (col (c% "a")) (.isNull (col (c% "b"))))))
      (.not (.like (.subscript (col (c% "c")) (num 1)) (text (c% "x%")) (some (text (c% "!"))))))
    (.inList (.case (some (col (c% "d"))) [(num 1, .cast true (col (c% "e")) (.decimal 10 2)), (num 2, .func .lower [col (c% "f")])] none)
      [.agg .sum [col (c% "g")] [.mk (col (c% "h")) true false] (some (.bin .ne (col (c% "i")) (num 0)))
        (some (.mk none [.mk (col (c% "j")) false true] [col (c% "k")] .rows (.unbounded .preceding) (.bounded .following (num 3)))) false,
       .row [.typeCtor (c% "2020-01-01") (c% "DATE"), .curTime .localTime 6, .agg .count [.star none .unknown] [] none none false],
       .array [.bin .sub (col (c% "l")) (.bin .sub (col (c% "m")) (col (c% "n")))],
       .lam [c% "x", c% "y"] (.bin .mul (.var (c% "x")) (.bin .add (.var (c% "y")) (col (c% "z"))))])

theorem bigExpr_tidy : bigExpr.Tidy false := by decide +kernel
theorem bigExpr_fits : bigExpr.Fits := by decide +kernel
/-- Nothing is identified in it. -/
theorem bigExpr_reread : bigExpr.reread = bigExpr := rfl
theorem bigExpr_check : bigExpr.check = .ok .boolean := rfl
theorem bigExpr_text : ∃ s s', bigExpr.sql {} = .ok s ∧ bigExpr.sql { mode := .pretty } = .ok s' ∧ s ≠ s' :=
  ⟨_, _, rfl, rfl, by decide +kernel⟩

/-- So it is read back exactly from both texts. -/
theorem C13_reached : ∃ s s', bigExpr.sql {} = .ok s ∧ bigExpr.sql { mode := .pretty } = .ok s' ∧ s ≠ s' ∧
    expressionFromSql s = .ok bigExpr ∧ expressionFromSql s' = .ok bigExpr := by
  obtain ⟨s, s', h, h', hne⟩ := bigExpr_text
  exact ⟨s, s', h, h', hne, C13_exact_partial _ _ _ _ bigExpr_tidy bigExpr_fits bigExpr_reread bigExpr_check h,
    C13_exact_partial _ _ _ _ bigExpr_tidy bigExpr_fits bigExpr_reread bigExpr_check h'⟩

/-- The identifications at work: `NOT (a = - 1)` with a typed column comes back as `a <> -1`. -/
theorem C13_identified : let e := Expr.not (.bin .eq (.field (c% "a") (some []) (.simple .integer)) (.un .neg (num 1)))
    e.sql {} = .ok (c% "\"a\" <> -1") ∧ expressionFromSql (c% "\"a\" <> -1") = .ok (.bin .ne (col (c% "a")) (num (-1))) := by
  refine ⟨rfl, ?_⟩
  exact C13_round_trip_partial (.not (.bin .eq (.field (c% "a") (some []) (.simple .integer)) (.un .neg (num 1)))) {} _ .boolean
    (by decide +kernel) (by decide +kernel) rfl rfl

def selectOf (items : List Expr) (from_ : Rel) : Query := .mk (.select items (some from_) none none none false []) none none [] []

/-- WITH, joins of all kinds, subqueries, grouping, windows, ordering, offset and limit. -/
def bigQuery : Query :=
  .mk (.select
      [.alias (.bin .add (tcol (c% "t") (c% "x")) (num 1)) (c% "one"), .star (some (c% "u")) .unknown, .star none .unknown,
       .agg .count [.star none .unknown] [] none (some (.mk (some (c% "w")) [] [] .range (.unbounded .preceding) .current)) false]
      (some (.join
        (.join (.join (.aliased (.mk (.table { name := c% "t", schema := some (c% "s"), catalog := some (c% "c") }) (c% "t") [c% "x", c% "y"]))
            (.sample (.table { name := c% "u" }) .bernoulli (num 10)) .left false (some (.on (.bin .eq (tcol (c% "t") (c% "x")) (tcol (c% "u") (c% "x"))))))
          (.query (selectOf [col (c% "z")] (.table { name := c% "v" }))) .inner false (some (.using [c% "x"])))
        (.unnest [.array [num 1, num 2]] false) .cross false none))
      (some (.bin .and (.inQuery (col (c% "x")) (.mk (.values [num 1, num 2]) none none [] [])) (.not (.isNull (col (c% "y"))))))
      (some (.mk [.set [col (c% "a")], .set [], .rollup [col (c% "b"), col (c% "c")], .sets [[col (c% "d")], [col (c% "e"), col (c% "f")], []]] true))
      (some (.bin .gt (.agg .sum [col (c% "x")] [] none none false) (num 5))) true
      [(c% "w", .mk none [] [col (c% "p")] .groups .current (.unbounded .following))])
    (some 10) (some 20) [.mk (col (c% "x")) true true, .mk (num 2) false false]
    [.mk (.query (.mk (.table { name := c% "base" }) none (some 1) [] [])) (c% "cte") []]

theorem bigQuery_tidy : bigQuery.Tidy := by decide +kernel
theorem bigQuery_fits : bigQuery.Fits := by decide +kernel
theorem bigQuery_reread : bigQuery.reread = bigQuery := rfl
theorem bigQuery_check : ∃ t, bigQuery.check = .ok t := ⟨_, rfl⟩

/-- It is read back exactly from both texts. -/
theorem C27_reached : ∃ s s', bigQuery.sql {} = .ok s ∧ bigQuery.sql { mode := .pretty } = .ok s' ∧ s ≠ s' ∧
    queryFromSql s = .ok (some bigQuery) ∧ queryFromSql s' = .ok (some bigQuery) := by
  obtain ⟨s, s', h, h', hne⟩ : ∃ s s', bigQuery.sql {} = .ok s ∧ bigQuery.sql { mode := .pretty } = .ok s' ∧ s ≠ s' :=
    ⟨_, _, rfl, rfl, by decide +kernel⟩
  obtain ⟨t, ht⟩ := bigQuery_check
  exact ⟨s, s', h, h', hne, C27_exact_partial _ _ _ _ bigQuery_tidy bigQuery_fits bigQuery_reread ht h,
    C27_exact_partial _ _ _ _ bigQuery_tidy bigQuery_fits bigQuery_reread ht h'⟩

end Treeno.Props
