import Verif.Props.ComposeProps
import Verif.Lemmas.ComposeWindow
/-!
# C72: calls with windows compose

A call of an aggregate put together from the texts of its arguments, sort keys, condition, partitions and frame bounds is
read as the aggregate over what these are read as.
-/
set_option autoImplicit false
namespace Treeno.Props
open Spec

/-- **C72.** An aggregate with sort keys, FILTER, IGNORE or RESPECT NULLS and OVER: every part ends up where it was
written, and what is not written has its default. -/
theorem C72_window (f : Agg) {x : CallParts} {es : List Expr} {os : List Ord} {fl : Option Expr} {w : Option Win} {ign : Bool}
    (h1 : Each Text x.args es) (hf : AggFits f es.length) (h2 : Each SortRead x.order os) (h3 : OptText x.filter fl)
    (h4 : OverOpt x.over w ign) :
    expressionFromSql (x.text f.name) = (Expr.agg f es os fl w ign).build := by
  obtain ⟨cs, co, cf, n, cw, ts, k1, k2, k3, k4, k5, k6, k7⟩ :=
    call_read (agg_calls f) (by cases f <;> rfl) (by intro u; cases f <;> rfl) h1 h2 h3 h4
  have hl := k1.all
  rw [← hl, ← toks_open, ← agg_toks] at k2
  have e : x.text f.name = f.name ++ '(' :: (parList x.args ++ (listClause (c% " ORDER BY ") (sortText x.order) x.order.isEmpty ++
      (c% ")" ++ (filterText x.filter ++ overText x.over)))) := rfl
  rw [e, reads_as k2, CE_conv_call, k3, k4, k5, k6]
  show (do let n' ← identTexts ([f.name].map wordOf); callOf n' es os fl n w) = _
  rw [idents_words]
  show callOf [f.name] es os fl n w = _
  unfold callOf
  dsimp only
  rw [(agg_named f).1]
  dsimp only
  rw [(agg_named f).2]
  dsimp only
  rw [agg_order hf, k7]

/-- **C72.** An aggregate over all rows, as in `COUNT(*)`. -/
theorem C72_star (f : Agg) {s : Option Str} {fl : Option Expr} (h1 : OptText s fl) {o : Option OverPart} {w : Option Win}
    (h2 : OverOpt (o.map fun o => (none, o)) w false) (hf : AggFits f 1) :
    expressionFromSql (f.name ++ (c% "(*)" ++ (filterText s ++ overText (o.map fun o => (none, o))))) =
      (Expr.agg f [.star none .unknown] [] fl w false).build := by
  obtain ⟨cf, tf, f1, f2, f3⟩ := filter_read h1
  obtain ⟨cw, tw, w1, w2, w3, w5⟩ := over_opt_read h2
  have k2 := star_read (agg_calls f) (by cases f <;> rfl) (by intro u; cases f <;> rfl) (f3 _ w5) w2
  have hl := (f1.app w1).all
  rw [← hl, ← toks_star, ← agg_toks] at k2
  have e : f.name ++ (c% "(*)" ++ (filterText s ++ overText (o.map fun o => (none, o)))) =
      f.name ++ '(' :: '*' :: ')' :: (filterText s ++ overText (o.map fun o => (none, o))) := rfl
  rw [e, reads_as k2, CE_conv_callStar, f2, w3]
  show (do let n' ← identTexts ([f.name].map wordOf); callOf n' [.star none .unknown] [] fl none w) = _
  rw [idents_words]
  show callOf [f.name] [.star none .unknown] [] fl none w = _
  unfold callOf
  dsimp only
  rw [(agg_named f).1]
  dsimp only
  rw [(agg_named f).2]
  dsimp only
  rw [agg_order (by simpa using hf)]
  rfl

/-! ## Cases and limits -/

/-- A sum with everything: sort key, condition, NULLs and a window with a parent, partitions, order and frame. -/
def sumParts : CallParts :=
  { args := [textB], order := [{ key := textA, desc := some true, nullsFirst := none }], filter := some textA
    over := some (some true, .window
      { parent := some (c% "v"), partitions := [textA, textQ], order := [{ key := textB, desc := none, nullsFirst := some true }]
        frame := .between .rows (.rows textB false) (.unbounded true) }) }

example : sumParts.text (c% "SUM") = c% "SUM((a\nAND b\n) ORDER BY (x = NULL OR y -- not z\n) DESC ) FILTER (WHERE (x = NULL OR y -- not z\n)) IGNORE NULLS  OVER ( \"v\"  PARTITION BY (x = NULL OR y -- not z\n), (SELECT a FROM t -- all\n) ORDER BY (a\nAND b\n) NULLS FIRST  ROWS  BETWEEN  (a\nAND b\n) PRECEDING  AND  UNBOUNDED  FOLLOWING )" := by
  krfl

theorem sumParts_read : expressionFromSql (sumParts.text (c% "SUM")) =
    .ok (.agg .sum [exprB] [.mk exprA true false] (some exprA)
      (some (.mk (some (c% "v")) [.mk exprB false true] [exprA, .query queryQ] .rows (.bounded .preceding exprB) (.unbounded .following)))
      true) :=
  C72_window .sum (x := sumParts) (.cons textB_read .nil) (by intro h; cases h) (.cons ⟨_, textA_read, rfl⟩ .nil) (.some textA_read)
    (.some (n := some true) (.window (.mk (by intro n h; cases h; decide +kernel) (.cons textA_read (.cons textQ_read .nil))
      (.cons ⟨_, textB_read, rfl⟩ .nil) (.between (.rows textB_read) .unbounded))))

/-- What is not written: no sort keys, no condition, and the frame up to the current row. -/
example : expressionFromSql (c% "MIN((a\nAND b\n)) OVER ( \"v\"  GROUPS  CURRENT ROW )") =
    .ok (.agg .min [exprB] [] none (some (.mk (some (c% "v")) [] [] .groups .current .current)) false) :=
  C72_window .min (x := ⟨[textB], [], none, some (none, .window ⟨some (c% "v"), [], [], .from_ .groups .current⟩)⟩)
    (.cons textB_read .nil) (by intro h; cases h) .nil .none
    (.some (n := none) (.window (.mk (by intro n h; cases h; decide +kernel) .nil .nil (.from_ .current))))

example : expressionFromSql (c% "COUNT(*) FILTER (WHERE (a\nAND b\n)) OVER \"w\" ") =
    .ok (.agg .count [.star none .unknown] [] (some exprB) (some (.mk (some (c% "w")) [] [] .range (.unbounded .preceding) .current)) false) :=
  C72_star .count (s := some textB) (o := some (.name (c% "w"))) (.some textB_read) (.some (n := none) (.name (by decide +kernel)))
    (by intro h; cases h)

/-- A call is again a text that can be put into another: here into a sort key. -/
example : expressionFromSql ((CallParts.mk [textB] [{ key := sumParts.text (c% "SUM"), desc := none, nullsFirst := none }] none none).text
      (c% "ARRAY_AGG")) = (Expr.agg .arrayAgg [exprB] [.mk (.agg .sum [exprB] [.mk exprA true false] (some exprA)
      (some (.mk (some (c% "v")) [.mk exprB false true] [exprA, .query queryQ] .rows (.bounded .preceding exprB) (.unbounded .following)))
      true) false false] none none false).build :=
  C72_window .arrayAgg (.cons textB_read .nil) (by intro h; cases h)
    (.cons ⟨_, .expr sumParts_read (by intro q h; cases h), rfl⟩ .nil) .none .none

end Treeno.Props
