import Verif.Props.ComposeProps
/-!
# C72: queries compose

A query put together from the texts of its parts is read as the query over what the parts are read as, whatever the
parts are.  The result is again a text of the kind the parts are, so this can be repeated to any depth.
-/
set_option autoImplicit false
namespace Treeno.Props
open Spec

/-- **C72.** SELECT with `*`, items and their names; tables, queries, UNNEST and LATERAL under names with columns, and samples of
them; joins with ON, USING, NATURAL and CROSS, in parentheses or not; WHERE, GROUP BY with ROLLUP, CUBE and GROUPING SETS, HAVING, named windows, set operations, ORDER BY, OFFSET and LIMIT: the text is
read to its end, and every part ends up where it was written. -/
theorem C72_query {x : QueryText} {q : Query} (h : x.Means q) : Text x.text (.query q) := query_text h

theorem C72_query_read {x : QueryText} {q : Query} (h : x.Means q) : queryFromSql x.text = .ok (some q) := by
  cases query_text h with
  | expr _ h => exact absurd rfl (h q)
  | query _ h => exact h

/-- **C72.** Named queries in front of a query, with the names of their columns. -/
theorem C72_with {ps : List NamedPart} {ns : List Named} (hne : ps ≠ []) (h : Each NamedText ps ns) {s : Str} {b : QBody}
    {off lim : Option Int} {ob : List Ord} (hs : Text s (.query (.mk b off lim ob []))) :
    Text (c% "WITH " ++ (withText ps ++ (c% " " ++ s))) (.query (.mk b off lim ob ns)) := with_text hne h hs

/-- Why the operands of the set operations above stand without parentheses: in this code a query in parentheses is no operand. -/
theorem C72_union_operands_false {s t : Str} {b1 b2 : QBody} {f1 l1 f2 l2 : Option Int} {o1 o2 : List Ord}
    (h1 : Text s (.query (.mk b1 f1 l1 o1 []))) (h2 : Text t (.query (.mk b2 f2 l2 o2 []))) :
    queryFromSql (par s ++ (c% " UNION " ++ par t)) = .error .attributeError := union_subs h1 h2

/-! ## Cases and limits -/

/-- The first SELECT: two items, a join of a query with a table, a condition. -/
def selA : SelectText :=
  { distinct := true, items := [.expr textA (some (c% "x y")), .expr textB none]
    source := some { source := .query textQ, mark := { name := some (c% "q", []) }, joins := [.on (c% " LEFT JOIN ") (.table (c% "u")) {} textB] }
    filter := some textA, group := [.set [textB], .set [textQ]], having := some textA, windows := [] }

def selB : SelectText := { distinct := false, items := [.expr textB none], source := none, filter := none, group := [], having := none, windows := [] }

def selectA : QBody := .select [.alias exprA (c% "x y"), exprB]
    (some (.join (.aliased (.mk (.query queryQ) (c% "q") [])) (.table { name := c% "u" }) .left false (some (.on exprB))))
    (some exprA) (some (.mk [.set [exprB], .set [.query queryQ]] false)) (some exprA) true []
def bodyA : Query := .mk selectA none none [] []
def bodyB : Query := .mk (.select [exprB] none none none none false []) none none [] []

theorem selA_means : selA.Means bodyA :=
  ⟨by simp [selA], .nil, _, _, _, _, _, _, .cons (.named textA_read (by decide +kernel)) (.cons (.plain textB_read) .nil),
    .some (.whole (.named (.query textQ_read) (by decide +kernel) (by simp)))
      (.cons (.on (k := .left) (by decide +kernel) (.whole (.plain (.table (by decide +kernel)))) textB_read) .nil),
    .some textA_read, .cons (.set (.cons textB_read .nil)) (.cons (.set (.cons textQ_read .nil)) .nil), .some textA_read, .nil, rfl⟩
theorem selB_means : selB.Means bodyB :=
  ⟨by simp [selB], .nil, _, _, _, _, _, _, .cons (.plain textB_read) .nil, .none, .none, .nil, .none, .nil, rfl⟩

/-- A SELECT alone, sorted and cut. -/
def textOne : QueryText :=
  { head := { head := .select selA, more := [] }, more := []
    order := [{ key := textB, desc := some true, nullsFirst := none }, { key := textA, desc := none, nullsFirst := some true }]
    offset := some 20, limit := some 10 }

example : textOne.text = c% "SELECT DISTINCT (x = NULL OR y -- not z\n) \"x y\" , (a\nAND b\n)" ++
    c% " FROM (SELECT a FROM t -- all\n) \"q\"  LEFT JOIN \"u\"  ON (a\nAND b\n) WHERE (x = NULL OR y -- not z\n)" ++
    c% " GROUP BY (a\nAND b\n), (SELECT a FROM t -- all\n) HAVING (x = NULL OR y -- not z\n)" ++
    c% " ORDER BY (a\nAND b\n) DESC , (x = NULL OR y -- not z\n) NULLS FIRST  OFFSET 20  LIMIT 10 " := by krfl

theorem textOne_means : textOne.Means (.mk selectA (some 20) (some 10) [.mk exprB true false, .mk exprA false true] []) :=
  ⟨_, _, _, ⟨_, .select selA_means, .nil⟩, .nil, .cons ⟨_, textB_read, rfl⟩ (.cons ⟨_, textA_read, rfl⟩ .nil), rfl⟩

example : queryFromSql textOne.text =
    .ok (some (.mk selectA (some 20) (some 10) [.mk exprB true false, .mk exprA false true] [])) := C72_query_read textOne_means

/-- A SELECT with `*`, every kind of source, of join and of grouping, and named windows. -/
def selC : SelectText :=
  { distinct := false, items := [.expr textB none, .all]
    source := some { source := .query textQ, mark := { name := some (c% "t1", [c% "a", c% "b"]), sample := some (.system, textB) }
                     joins := [.using (c% " JOIN ") (.lateral textQ) { name := some (c% "l", []) } [c% "a", c% "b"],
                               .natural (c% " FULL OUTER JOIN ") (.inCatalog (c% "c") (c% "s") (c% "t")) { sample := some (.bernoulli, textA) },
                               .on (c% " RIGHT JOIN ") (.inSchema (c% "s") (c% "t")) {} textB,
                               .cross (.unnest [textB, textA] true) { name := some (c% "e", [c% "x"]) }] }
    filter := none, group := [.rollup [textB, textQ], .set [], .sets [[textQ], [], [textQ, textA]], .cube [textA], .set [textB, textA]], having := none
    windows := [(c% "v", ⟨none, [textA], [], .none⟩), (c% "w", ⟨some (c% "v"), [], [⟨textB, some true, none⟩], .from_ .rows .current⟩)] }

def textAll : QueryText := { head := { head := .select selC, more := [] }, more := [], order := [], offset := none, limit := none }

example : textAll.text = c% "SELECT (a\nAND b\n), *  FROM (SELECT a FROM t -- all\n) \"t1\" (\"a\" , \"b\" ) TABLESAMPLE SYSTEM ((a\nAND b\n))" ++
    c% " JOIN LATERAL (SELECT a FROM t -- all\n) \"l\"  USING (\"a\" , \"b\" )" ++
    c% " NATURAL  FULL OUTER JOIN \"c\".\"s\".\"t\"  TABLESAMPLE BERNOULLI ((x = NULL OR y -- not z\n))" ++
    c% " RIGHT JOIN \"s\".\"t\"  ON (a\nAND b\n)" ++
    c% " CROSS JOIN UNNEST ((a\nAND b\n), (x = NULL OR y -- not z\n)) WITH ORDINALITY  \"e\" (\"x\" )" ++
    c% " GROUP BY ROLLUP ((a\nAND b\n), (SELECT a FROM t -- all\n)), (), GROUPING SETS ((SELECT a FROM t -- all\n), ()," ++
    c% " ((SELECT a FROM t -- all\n), (x = NULL OR y -- not z\n))), CUBE ((x = NULL OR y -- not z\n)), ((a\nAND b\n), (x = NULL OR y -- not z\n))" ++
    c% " WINDOW \"v\"  AS ( PARTITION BY (x = NULL OR y -- not z\n)), \"w\"  AS ( \"v\"  ORDER BY (a\nAND b\n) DESC  ROWS  CURRENT ROW )" := by krfl

theorem textAll_read : queryFromSql textAll.text = .ok (some (.mk (.select [exprB, .star none .unknown]
    (some (.join (.join (.join (.join (.sample (.aliased (.mk (.query queryQ) (c% "t1") [c% "a", c% "b"])) .system exprB)
      (.aliased (.mk (.lateral queryQ) (c% "l") [])) .inner false (some (.using [c% "a", c% "b"])))
      (.sample (.table { name := c% "t", schema := some (c% "s"), catalog := some (c% "c") }) .bernoulli exprA) .outer true none)
      (.table { name := c% "t", schema := some (c% "s") }) .right false (some (.on exprB)))
      (.aliased (.mk (.unnest [exprB, exprA] true) (c% "e") [c% "x"])) .cross false none))
    none (some (.mk [.rollup [exprB, .query queryQ], .set [], .sets [[.query queryQ], [], [.query queryQ, exprA]], .cube [exprA],
      .set [exprB, exprA]] false)) none false
    [(c% "v", .mk none [] [exprA] .range (.unbounded .preceding) .current),
     (c% "w", .mk (some (c% "v")) [.mk exprB true false] [] .rows .current .current)]) none none [] [])) :=
  C72_query_read (x := textAll) ⟨_, _, _, ⟨_, .select ⟨by simp [selC], by decide +kernel, _, _, _, _, _, _,
    .cons (.plain textB_read) (.cons .all .nil),
    .some (.sample (.named (.query textQ_read) (by decide +kernel) (by decide +kernel)) textB_read)
      (.cons (.using (k := .inner) (by decide +kernel) (.whole (.named (.lateral textQ_read) (by decide +kernel) (by simp))) (by simp) (by decide +kernel))
      (.cons (.natural (k := .outer) (by decide +kernel)
        (.sample (.plain (.inCatalog (by decide +kernel) (by decide +kernel) (by decide +kernel) (by simp))) textA_read))
      (.cons (.on (k := .right) (by decide +kernel) (.whole (.plain (.inSchema (by decide +kernel) (by decide +kernel)))) textB_read)
      (.cons (.cross (.whole (.named (.unnest (by simp) (.cons textB_read (.cons textA_read .nil))) (by decide +kernel) (by decide +kernel)))) .nil)))),
    .none, .cons (.rollup (by simp) (.cons textB_read (.cons textQ_read .nil))) (.cons (.set .nil)
      (.cons (.sets (by simp) (.cons (.cons textQ_read .nil) (.cons .nil (.cons (.cons textQ_read (.cons textA_read .nil)) .nil))))
      (.cons (.cube (by simp) (.cons textA_read .nil)) (.cons (.set (.cons textB_read (.cons textA_read .nil))) .nil)))), .none,
    .cons ⟨by decide +kernel, rfl, .mk (by intro n h; cases h) (.cons textA_read .nil) .nil .none⟩
      (.cons ⟨by decide +kernel, rfl, .mk (by intro n h; cases h; decide +kernel) .nil (.cons ⟨_, textB_read, rfl⟩ .nil) (.from_ .current)⟩ .nil),
    rfl⟩, .nil⟩, .nil, .nil, rfl⟩

/-- All the columns of a table and of a row, the latter with names. -/
def textStars : QueryText :=
  { head := { head := .select { selB with items := [.allOf (c% "t") [], .expr textB none, .allOf textQ [c% "a", c% "b"]] }, more := [] }
    more := [], order := [], offset := none, limit := none }

example : textStars.text = c% "SELECT (t\n).* , (a\nAND b\n), (SELECT a FROM t -- all\n).* AS (\"a\" , \"b\" )" := by krfl

theorem textStars_read : queryFromSql textStars.text = .ok (some (.mk (.select
    [.star (some (c% "t")) .unknown, exprB, .aliasedStar (.starOf (.query queryQ) .unknown) [c% "a", c% "b"]] none none none none false [])
    none none [] [])) :=
  C72_query_read (x := textStars) ⟨_, _, _, ⟨_, .select ⟨by simp, .nil, _, _, _, _, _, _,
    .cons (.allOf (.table (t := .unknown) (.expr (expr_of_parserN 60 (by krfl)) (by intro q h; cases h))))
      (.cons (.plain textB_read) (.cons (.allAs (.row textQ_read rfl) (by simp) (by decide +kernel)) .nil)),
    .none, .none, .nil, .none, .nil, rfl⟩, .nil⟩, .nil, .nil, rfl⟩

/-- Why a star stands for no field of a table: only the last of the names is kept. -/
theorem C72_qualified_star_false : queryFromSql (c% "SELECT (t.r).*") =
    .ok (some (.mk (.select [.star (some (c% "r")) .unknown] none none none none false []) none none [] [])) := query_of_parserN 60 (by krfl)

/-- Joins in parentheses among joins. -/
def relInner : FromText := { source := .table (c% "v"), mark := {}, joins := [.natural (c% " JOIN ") (.query textQ) {}] }
def relOuter : FromText :=
  { source := .query textQ, mark := { name := some (c% "q", []) }, joins := [.cross (.joined relInner.text) {}, .on (c% " JOIN ") (.table (c% "u")) {} textB] }
def textJoins : QueryText :=
  { head := { head := .select { selB with source := some { source := .joined relInner.text, mark := { sample := some (.system, textA) }
                                                           joins := [.on (c% " LEFT JOIN ") (.joined relOuter.text) { name := some (c% "j", []) } textA] } }
              more := [] }
    more := [], order := [], offset := none, limit := none }

example : textJoins.text = c% "SELECT (a\nAND b\n) FROM (\"v\"  NATURAL  JOIN (SELECT a FROM t -- all\n)) TABLESAMPLE SYSTEM ((x = NULL OR y -- not z\n))" ++
    c% " LEFT JOIN ((SELECT a FROM t -- all\n) \"q\"  CROSS JOIN (\"v\"  NATURAL  JOIN (SELECT a FROM t -- all\n)) JOIN \"u\"  ON (a\nAND b\n)) \"j\" " ++
    c% " ON (x = NULL OR y -- not z\n)" := by krfl

theorem relInner_read : RelText relInner.text (.join (.table { name := c% "v" }) (.query queryQ) .inner true none) :=
  .mk (by simp [relInner]) (.whole (.plain (.table (by decide +kernel))))
    (.cons (.natural (k := .inner) (by decide +kernel) (.whole (.plain (.query textQ_read)))) .nil)

theorem textJoins_read : queryFromSql textJoins.text = .ok (some (.mk (.select [exprB]
    (some (.join (.sample (.join (.table { name := c% "v" }) (.query queryQ) .inner true none) .system exprA)
      (.aliased (.mk (.join (.join (.aliased (.mk (.query queryQ) (c% "q") [])) (.join (.table { name := c% "v" }) (.query queryQ) .inner true none)
        .cross false none) (.table { name := c% "u" }) .inner false (some (.on exprB))) (c% "j") [])) .left false (some (.on exprA))))
    none none none false []) none none [] [])) :=
  C72_query_read (x := textJoins) ⟨_, _, _, ⟨_, .select ⟨by simp [selB], .nil, _, _, _, _, _, _, .cons (.plain textB_read) .nil,
    .some (.sample (.plain (.joined relInner_read)) textA_read)
      (.cons (.on (k := .left) (by decide +kernel) (.whole (.named (.joined (.mk (by simp [relOuter])
        (.whole (.named (.query textQ_read) (by decide +kernel) (by simp)))
        (.cons (.cross (.whole (.plain (.joined relInner_read))))
        (.cons (.on (k := .inner) (by decide +kernel) (.whole (.plain (.table (by decide +kernel)))) textB_read) .nil))))
        (by decide +kernel) (by simp))) textA_read) .nil),
    .none, .nil, .none, .nil, rfl⟩, .nil⟩, .nil, .nil, rfl⟩

/-- Why only joins stand in parentheses of their own: a query in two pairs of them is lost, and so is the FROM. -/
theorem C72_parens_false : queryFromSql (c% "SELECT a FROM ((SELECT b))") =
    .ok (some (.mk (.select [col (c% "a")] none none none none false []) none none [] [])) := query_of_parserN 60 (by krfl)

/-- Why ROLLUP and CUBE need a text: the grammar takes them without, the constructors do not. -/
theorem C72_rollup_false : queryFromSql (c% "SELECT a GROUP BY ROLLUP ()") = .error .assertion := query_of_parserN 60 (by krfl)

/-- Why the schema of a table in a catalog has to have a name: `""` counts as no schema. -/
theorem C72_catalog_false : queryFromSql (c% "SELECT a FROM c.\"\".t") = .error .assertion := query_of_parserN 60 (by krfl)

/-- Why the names of the windows have to differ: they are kept in a dict, and the last one under a name replaces the others. -/
theorem C72_windows_false : queryFromSql (c% "SELECT a WINDOW w AS (PARTITION BY b), w AS ()") =
    .ok (some (.mk (.select [col (c% "a")] none none none none false
      [(c% "w", .mk none [] [] .range (.unbounded .preceding) .current)]) none none [] [])) := query_of_parserN 60 (by krfl)

/-- INTERSECT binds tighter than UNION and EXCEPT, and each of them takes what stands on its left. -/
def textSets : QueryText :=
  { head := { head := .select selB, more := [] }
    more := [(c% " UNION ALL ", { head := .select selB, more := [(c% " INTERSECT ", .select selB)] }), (c% " EXCEPT ", { head := .select selB, more := [] })]
    order := [], offset := none, limit := some 3 }

theorem textSets_means : textSets.Means (.mk (.set .except (.mk (.set .union bodyB (.mk (.set .intersect bodyB bodyB true) none none [] []) false)
    none none [] []) bodyB true) none (some 3) [] []) :=
  ⟨_, _, _, ⟨_, .select selB_means, .nil⟩,
    .cons (k := .union) (d := false) (by decide +kernel) ⟨_, .select selB_means, .cons (k := .intersect) (d := true) (by decide +kernel) (.select selB_means) ⟨_, rfl⟩ .nil⟩ ⟨_, rfl⟩
      (.cons (k := .except) (d := true) (by decide +kernel) ⟨_, .select selB_means, .nil⟩ ⟨_, rfl⟩ .nil), .nil, rfl⟩

example : textSets.text = c% "SELECT (a\nAND b\n) UNION ALL SELECT (a\nAND b\n) INTERSECT SELECT (a\nAND b\n) EXCEPT SELECT (a\nAND b\n) LIMIT 3 " := rfl

/-- All of a table and rows, among set operations and alone. -/
def textRows : QueryText :=
  { head := { head := .table (.inCatalog (c% "c") (c% "s") (c% "t")), more := [(c% " INTERSECT ", .values [textA, textB])] }
    more := [(c% " EXCEPT ", { head := .table (.table (c% "u")), more := [] })], order := [⟨textB, none, none⟩], offset := some 1, limit := none }

example : textRows.text = c% "TABLE \"c\".\"s\".\"t\"  INTERSECT VALUES (x = NULL OR y -- not z\n), (a\nAND b\n) EXCEPT TABLE \"u\" " ++
    c% " ORDER BY (a\nAND b\n) OFFSET 1 " := by krfl

theorem textRows_read : queryFromSql textRows.text = .ok (some (.mk (.set .except (.mk (.set .intersect
    (.mk (.table { name := c% "t", schema := some (c% "s"), catalog := some (c% "c") }) none none [] [])
    (.mk (.values [exprA, exprB]) none none [] []) true) none none [] []) (.mk (.table { name := c% "u" }) none none [] []) true)
    (some 1) none [.mk exprB false false] [])) :=
  C72_query_read (x := textRows) ⟨_, _, _,
    ⟨_, .table (.inCatalog (by decide +kernel) (by decide +kernel) (by decide +kernel) (by simp)),
      .cons (k := .intersect) (d := true) (by decide +kernel) (.values (by simp) (.cons textA_read (.cons textB_read .nil)) ⟨_, rfl⟩) ⟨_, rfl⟩ .nil⟩,
    .cons (k := .except) (d := true) (by decide +kernel) ⟨_, .table (.table (by decide +kernel)), .nil⟩ ⟨_, rfl⟩ .nil,
    .cons ⟨_, textB_read, rfl⟩ .nil, rfl⟩

/-- Why rows have to be such as the constructor takes: their types must have one above them. -/
theorem C72_values_false : queryFromSql (c% "VALUES TRUE, 1") = .error .typeError := query_of_parserN 60 (by krfl)

/-- The result is a text like its parts: here it stands in a WITH, in front of a query that is put together too. -/
def namedAll : List NamedPart := [⟨c% "n", [], textSets.text⟩, ⟨c% "m", [c% "x", c% "y"], textOne.text⟩]

example : withText [⟨c% "n", [], c% "TABLE t"⟩, ⟨c% "m", [c% "x", c% "y"], textQ⟩] =
    c% "\"n\"  AS (TABLE t\n), \"m\" (\"x\" , \"y\" ) AS (SELECT a FROM t -- all\n)" := by krfl

theorem namedAll_read : Text (c% "WITH " ++ (withText namedAll ++ (c% " " ++ textOne.text))) (.query (.mk selectA (some 20) (some 10)
    [.mk exprB true false, .mk exprA false true]
    [.mk (.query (.mk (.set .except (.mk (.set .union bodyB (.mk (.set .intersect bodyB bodyB true) none none [] []) false)
      none none [] []) bodyB true) none (some 3) [] [])) (c% "n") [],
     .mk (.query (.mk selectA (some 20) (some 10) [.mk exprB true false, .mk exprA false true] [])) (c% "m") [c% "x", c% "y"]])) :=
  C72_with (by simp) (.cons ⟨by decide +kernel, by simp, _, C72_query textSets_means, rfl⟩
    (.cons ⟨by decide +kernel, by decide +kernel, _, C72_query textOne_means, rfl⟩ .nil)) (C72_query textOne_means)

example : queryFromSql (par textQ ++ (c% " UNION " ++ par textSets.text)) = .error .attributeError :=
  C72_union_operands_false textQ_read (C72_query textSets_means)

/-- Without the parentheses around its parts the query is another one: the OR takes the condition apart. -/
example : queryFromSql (c% "SELECT (a\nAND b\n) WHERE x = NULL OR y AND z") =
    .ok (some (.mk (.select [exprB] none (some (.bin .or (.bin .eq (col (c% "x")) (.lit none .unknown)) (.bin .and (col (c% "y")) (col (c% "z")))))
      none none false []) none none [] [])) := query_of_parserN 60 (by krfl)

end Treeno.Props
