import Verif.Spec.ComposeWindow
/-!
# Queries put together from texts

What a user writes to build a query from the texts of its parts: every expression and every subquery in parentheses,
tables and new names in double quotes.
-/
set_option autoImplicit false
set_option inductive.autoPromoteIndices false
namespace Treeno.Spec

/-- An item of a SELECT: all columns, or a text with its new name if it has one. -/
inductive ItemPart
  | all
  | allOf (text : Str) (names : List Str)
  | expr (text : Str) (name : Option Str)

/-- The names of the columns of a star. -/
def starNames : List Str → Str
  | [] => []
  | ns => c% "AS " ++ (c% "(" ++ (namesText ns ++ c% ")"))

def ItemPart.text : ItemPart → Str
  | .all => c% "* "
  | .allOf s ns => par s ++ (c% ".* " ++ starNames ns)
  | .expr s n => par s ++ nameText n

def itemText : List ItemPart → Str
  | [] => []
  | [i] => i.text
  | i :: is => i.text ++ (c% ", " ++ itemText is)

/-- All the columns of what the text stands for: a name stands for a table. -/
inductive StarText : Str → Expr → Prop
  | table {s m : Str} {t : Ty} : Text s (.field m none t) → StarText s (.star (some m) .unknown)
  | row {s : Str} {e : Expr} : Text s e → e.isField = false → StarText s (.starOf e .unknown)

/-- The item is read as the expression, under its new name if it has one. -/
inductive ItemText : ItemPart → Expr → Prop
  | all : ItemText .all (.star none .unknown)
  | allOf {s : Str} {x : Expr} : StarText s x → ItemText (.allOf s []) x
  | allAs {s : Str} {x : Expr} {ns : List Str} : StarText s x → ns ≠ [] → (∀ n ∈ ns, '"' ∉ n) → ItemText (.allOf s ns) (.aliasedStar x ns)
  | plain {s : Str} {e : Expr} : Text s e → ItemText (.expr s none) e
  | named {s n : Str} {e : Expr} : Text s e → '"' ∉ n → ItemText (.expr s (some n)) (.alias e n)

/-- What a query reads from: the text of a query, a table, the elements of arrays, a query that may refer to what
stands on its left, or the text of joins. -/
inductive Source
  | query (text : Str)
  | table (name : Str)
  | inSchema (schema name : Str)
  | inCatalog (catalog schema name : Str)
  | unnest (arrays : List Str) (ordinality : Bool)
  | lateral (text : Str)
  | joined (text : Str)

def Source.text : Source → Str
  | .query t => par t
  | .table n => quoted n ++ c% " "
  | .inSchema s n => quoted s ++ (c% "." ++ (quoted n ++ c% " "))
  | .inCatalog c s n => quoted c ++ (c% "." ++ (quoted s ++ (c% "." ++ (quoted n ++ c% " "))))
  | .unnest ss o => c% "UNNEST " ++ (c% "(" ++ (parList ss ++ (c% ")" ++ if o then c% " WITH ORDINALITY " else [])))
  | .lateral t => c% "LATERAL " ++ par t
  | .joined t => c% "(" ++ (t ++ c% ")")

/-- The relation a source stands for.  `R` is what the texts of joins stand for. -/
inductive BaseText (R : Str → Rel → Prop) : Source → Rel → Prop
  | query {t : Str} {q : Query} : Text t (.query q) → BaseText R (.query t) (.query q)
  | table {m : Str} : '"' ∉ m → BaseText R (.table m) (.table { name := m })
  | inSchema {s m : Str} : '"' ∉ s → '"' ∉ m → BaseText R (.inSchema s m) (.table { name := m, schema := some s })
  | inCatalog {c s m : Str} : '"' ∉ c → '"' ∉ s → '"' ∉ m → s ≠ [] →
      BaseText R (.inCatalog c s m) (.table { name := m, schema := some s, catalog := some c })
  | unnest {ss : List Str} {es : List Expr} {o : Bool} : ss ≠ [] → Each Text ss es → BaseText R (.unnest ss o) (.unnest es o)
  | lateral {t : Str} {q : Query} : Text t (.query q) → BaseText R (.lateral t) (.lateral q)
  | joined {t : Str} {r : Rel} : R t r → BaseText R (.joined t) r

/-- A new name for a relation, with new names for its columns if there are any. -/
def aliasText : Option (Str × List Str) → Str
  | none => []
  | some (n, []) => ' ' :: (quoted n ++ c% " ")
  | some (n, ns) => ' ' :: (quoted n ++ (c% " " ++ (c% "(" ++ (namesText ns ++ c% ")"))))

/-- The relation that a source with its new name stands for. -/
inductive AliasedText (R : Str → Rel → Prop) : Source → Option (Str × List Str) → Rel → Prop
  | plain {x : Source} {r : Rel} : BaseText R x r → AliasedText R x none r
  | named {x : Source} {r : Rel} {n : Str} {ns : List Str} : BaseText R x r → '"' ∉ n → (∀ m ∈ ns, '"' ∉ m) →
      AliasedText R x (some (n, ns)) (.aliased (.mk r n ns))

/-- What stands after a source: its new name, and how much of it to take. -/
structure SourceMark where
  name : Option (Str × List Str) := none
  sample : Option (SampleType × Str) := none

def sampleWord : SampleType → Str
  | .bernoulli => c% "BERNOULLI "
  | .system => c% "SYSTEM "

def SourceMark.text (m : SourceMark) : Str :=
  aliasText m.name ++ match m.sample with
    | none => []
    | some (k, s) => c% " TABLESAMPLE " ++ (sampleWord k ++ (c% "(" ++ (par s ++ c% ")")))

/-- The relation that a source with what stands after it stands for. -/
inductive SourceText (R : Str → Rel → Prop) : Source → SourceMark → Rel → Prop
  | whole {x : Source} {n : Option (Str × List Str)} {r : Rel} : AliasedText R x n r → SourceText R x ⟨n, none⟩ r
  | sample {x : Source} {n : Option (Str × List Str)} {r : Rel} {k : SampleType} {s : Str} {e : Expr} : AliasedText R x n r →
      Text s e → SourceText R x ⟨n, some (k, s)⟩ (.sample r k e)

/-- The ways to write the kind of a join. -/
def joinTexts : List (Str × JoinType) :=
  [(c% " JOIN ", .inner), (c% " INNER JOIN ", .inner), (c% " LEFT JOIN ", .left), (c% " LEFT OUTER JOIN ", .left),
   (c% " RIGHT JOIN ", .right), (c% " RIGHT OUTER JOIN ", .right), (c% " FULL JOIN ", .outer), (c% " FULL OUTER JOIN ", .outer)]

/-- A join: with a condition, over common columns, over all common columns, or of all pairs. -/
inductive JoinText
  | on (word : Str) (source : Source) (mark : SourceMark) (cond : Str)
  | using (word : Str) (source : Source) (mark : SourceMark) (cols : List Str)
  | natural (word : Str) (source : Source) (mark : SourceMark)
  | cross (source : Source) (mark : SourceMark)

def JoinText.text : JoinText → Str
  | .on w x n s => w ++ (x.text ++ (n.text ++ (c% " ON " ++ par s)))
  | .using w x n cs => w ++ (x.text ++ (n.text ++ (c% " USING " ++ (c% "(" ++ (namesText cs ++ c% ")")))))
  | .natural w x n => c% " NATURAL " ++ (w ++ (x.text ++ n.text))
  | .cross x n => c% " CROSS JOIN " ++ (x.text ++ n.text)

def joinText : List JoinText → Str
  | [] => []
  | j :: js => j.text ++ joinText js

/-- What joining `r` with a source gives. -/
inductive JoinStep (R : Str → Rel → Prop) : Rel → JoinText → Rel → Prop
  | on {r : Rel} {w : Str} {x : Source} {n : SourceMark} {s : Str} {k : JoinType} {y : Rel} {e : Expr} : (w, k) ∈ joinTexts →
      SourceText R x n y → Text s e → JoinStep R r (.on w x n s) (.join r y k false (some (.on e)))
  | using {r : Rel} {w : Str} {x : Source} {n : SourceMark} {cs : List Str} {k : JoinType} {y : Rel} : (w, k) ∈ joinTexts →
      SourceText R x n y → cs ≠ [] → (∀ c ∈ cs, '"' ∉ c) → JoinStep R r (.using w x n cs) (.join r y k false (some (.using cs)))
  | natural {r : Rel} {w : Str} {x : Source} {n : SourceMark} {k : JoinType} {y : Rel} : (w, k) ∈ joinTexts →
      SourceText R x n y → JoinStep R r (.natural w x n) (.join r y k true none)
  | cross {r : Rel} {x : Source} {n : SourceMark} {y : Rel} : SourceText R x n y → JoinStep R r (.cross x n) (.join r y .cross false none)

/-- Joins from left to right: `Joined R r js r'` if joining `r` with `js` gives `r'`. -/
inductive Joined (R : Str → Rel → Prop) : Rel → List JoinText → Rel → Prop
  | nil {r : Rel} : Joined R r [] r
  | cons {r r1 r' : Rel} {j : JoinText} {js : List JoinText} : JoinStep R r j r1 → Joined R r1 js r' → Joined R r (j :: js) r'

structure FromText where
  source : Source
  mark : SourceMark
  joins : List JoinText

def FromText.text (f : FromText) : Str := f.source.text ++ (f.mark.text ++ joinText f.joins)

/-- The text of joins, with other joins in parentheses among what they join, and the relation it stands for. -/
inductive RelText : Str → Rel → Prop
  | mk {f : FromText} {r r' : Rel} : f.joins ≠ [] → SourceText RelText f.source f.mark r → Joined RelText r f.joins r' → RelText f.text r'

/-- The FROM clause, if there is one. -/
def fromClause : Option FromText → Str
  | none => []
  | some f => c% " FROM " ++ f.text

inductive FromRead : Option FromText → Option Rel → Prop
  | none : FromRead none none
  | some {f : FromText} {r r' : Rel} : SourceText RelText f.source f.mark r → Joined RelText r f.joins r' → FromRead (some f) (some r')

/-- A number of rows. -/
def rowText (k : Str) : Option Nat → Str
  | none => []
  | some n => k ++ (natStr n ++ c% " ")

/-- Named windows. -/
def defsText : List (Str × WinPart) → Str
  | [] => []
  | [d] => quoted d.1 ++ (c% " " ++ (c% " AS " ++ (c% "(" ++ (d.2.text ++ c% ")"))))
  | d :: ds => quoted d.1 ++ (c% " " ++ (c% " AS " ++ (c% "(" ++ (d.2.text ++ (c% ")" ++ (c% ", " ++ defsText ds))))))

def DefText (d : Str × WinPart) (w : Str × Win) : Prop := '"' ∉ d.1 ∧ w.1 = d.1 ∧ WinRead d.2 w.2

/-- A set to group by: one text in parentheses, or several, or none, in another pair of them. -/
def groupSet : List Str → Str
  | [s] => par s
  | ss => c% "(" ++ (parList ss ++ c% ")")

def groupSets : List (List Str) → Str
  | [] => []
  | [g] => groupSet g
  | g :: gs => groupSet g ++ (c% ", " ++ groupSets gs)

/-- What GROUP BY lists. -/
inductive GroupPart
  | set (texts : List Str)
  | rollup (texts : List Str)
  | cube (texts : List Str)
  | sets (sets : List (List Str))

def GroupPart.text : GroupPart → Str
  | .set ss => groupSet ss
  | .rollup ss => c% "ROLLUP " ++ (c% "(" ++ (parList ss ++ c% ")"))
  | .cube ss => c% "CUBE " ++ (c% "(" ++ (parList ss ++ c% ")"))
  | .sets gs => c% "GROUPING SETS " ++ (c% "(" ++ (groupSets gs ++ c% ")"))

def groupText : List GroupPart → Str
  | [] => []
  | [g] => g.text
  | g :: gs => g.text ++ (c% ", " ++ groupText gs)

inductive GroupRead : GroupPart → Grp → Prop
  | set {ss : List Str} {es : List Expr} : Each Text ss es → GroupRead (.set ss) (.set es)
  | rollup {ss : List Str} {es : List Expr} : ss ≠ [] → Each Text ss es → GroupRead (.rollup ss) (.rollup es)
  | cube {ss : List Str} {es : List Expr} : ss ≠ [] → Each Text ss es → GroupRead (.cube ss) (.cube es)
  | sets {gs : List (List Str)} {es : List (List Expr)} : gs ≠ [] → Each (Each Text) gs es → GroupRead (.sets gs) (.sets es)

/-- A SELECT with all its clauses. -/
structure SelectText where
  distinct : Bool
  items : List ItemPart
  source : Option FromText
  filter : Option Str
  group : List GroupPart
  having : Option Str
  windows : List (Str × WinPart)

def SelectText.text (x : SelectText) : Str :=
  (if x.distinct then c% "SELECT DISTINCT " else c% "SELECT ") ++ (itemText x.items ++ (fromClause x.source ++
    (optPar (c% " WHERE ") x.filter ++ (listClause (c% " GROUP BY ") (groupText x.group) x.group.isEmpty ++
    (optPar (c% " HAVING ") x.having ++ listClause (c% " WINDOW ") (defsText x.windows) x.windows.isEmpty)))))

/-- The grouping of a query. -/
def groupOf : List Grp → Option GroupBy
  | [] => none
  | gs => some (.mk gs false)

/-- `x.text` should be read as the query over what its parts are read as. -/
structure SelectText.Means (x : SelectText) (q : Query) : Prop where
  items : x.items ≠ []
  windows : (x.windows.map Prod.fst).Nodup
  parts : ∃ es fr wh gs hv ws, Each ItemText x.items es ∧ FromRead x.source fr ∧ OptText x.filter wh ∧ Each GroupRead x.group gs ∧
    OptText x.having hv ∧ Each DefText x.windows ws ∧ q = .mk (.select es fr wh (groupOf gs) hv x.distinct ws) none none [] []

/-- The set operations as written, those that bind tighter apart. -/
def interTexts : List (Str × SetKind × Bool) :=
  [(c% " INTERSECT ", .intersect, true), (c% " INTERSECT ALL ", .intersect, false), (c% " INTERSECT DISTINCT ", .intersect, true)]
def unionTexts : List (Str × SetKind × Bool) :=
  [(c% " UNION ", .union, true), (c% " UNION ALL ", .union, false), (c% " UNION DISTINCT ", .union, true),
   (c% " EXCEPT ", .except, true), (c% " EXCEPT ALL ", .except, false), (c% " EXCEPT DISTINCT ", .except, true)]

/-- Set operations from left to right: what `a` becomes with the operands `xs`.  The constructor accepts each step. -/
inductive Chain {α : Type} (words : List (Str × SetKind × Bool)) (R : α → Query → Prop) : Query → List (Str × α) → Query → Prop
  | nil {a : Query} : Chain words R a [] a
  | cons {a b q : Query} {w : Str} {k : SetKind} {d : Bool} {x : α} {xs : List (Str × α)} : (w, k, d) ∈ words → R x b →
      (∃ t, (Query.mk (.set k a b d) none none [] []).check = .ok t) →
      Chain words R (.mk (.set k a b d) none none [] []) xs q → Chain words R a ((w, x) :: xs) q

def operandText {α : Type} (f : α → Str) : List (Str × α) → Str
  | [] => []
  | (w, x) :: xs => w ++ (f x ++ operandText f xs)

/-- What set operations are between: a SELECT, all of a table, or rows. -/
inductive BodyText
  | select (x : SelectText)
  | table (x : Source)
  | values (rows : List Str)

def BodyText.text : BodyText → Str
  | .select x => x.text
  | .table x => c% "TABLE " ++ x.text
  | .values ss => c% "VALUES " ++ parList ss

inductive BodyText.Means : BodyText → Query → Prop
  | select {x : SelectText} {q : Query} : x.Means q → BodyText.Means (.select x) q
  | table {x : Source} {t : TableRef} : BaseText (fun _ _ => False) x (.table t) → BodyText.Means (.table x) (.mk (.table t) none none [] [])
  | values {ss : List Str} {es : List Expr} : ss ≠ [] → Each Text ss es →
      (∃ t, (Query.mk (.values es) none none [] []).check = .ok t) → BodyText.Means (.values ss) (.mk (.values es) none none [] [])

/-- Operands with INTERSECT between them. -/
structure TermText where
  head : BodyText
  more : List (Str × BodyText)

def TermText.text (x : TermText) : Str := x.head.text ++ operandText BodyText.text x.more

def TermText.Means (x : TermText) (q : Query) : Prop :=
  ∃ a, x.head.Means a ∧ Chain interTexts BodyText.Means a x.more q

/-- A query with all its clauses but WITH. -/
structure QueryText where
  head : TermText
  more : List (Str × TermText)
  order : List SortText
  offset : Option Nat
  limit : Option Nat

def QueryText.text (x : QueryText) : Str :=
  x.head.text ++ (operandText TermText.text x.more ++ (listClause (c% " ORDER BY ") (sortText x.order) x.order.isEmpty ++
    (rowText (c% " OFFSET ") x.offset ++ rowText (c% " LIMIT ") x.limit)))

/-- ORDER BY, OFFSET and LIMIT belong to the whole. -/
def QueryText.Means (x : QueryText) (q : Query) : Prop :=
  ∃ a b ob, x.head.Means a ∧ Chain unionTexts TermText.Means a x.more (.mk b none none [] []) ∧ Each SortRead x.order ob ∧
    q = .mk b (x.offset.map Int.ofNat) (x.limit.map Int.ofNat) ob []

/-- A query with a name, and names for its columns if there are any. -/
structure NamedPart where
  name : Str
  cols : List Str
  text : Str

def namedCols : List Str → Str
  | [] => []
  | ns => c% "(" ++ (namesText ns ++ c% ")")

def NamedPart.all (p : NamedPart) : Str := quoted p.name ++ (c% " " ++ (namedCols p.cols ++ (c% " AS " ++ par p.text)))

/-- Named queries in front of a query. -/
def withText : List NamedPart → Str
  | [] => []
  | [p] => p.all
  | p :: ps => p.all ++ (c% ", " ++ withText ps)

structure NamedText (p : NamedPart) (n : Named) : Prop where
  name : '"' ∉ p.name
  cols : ∀ m ∈ p.cols, '"' ∉ m
  query : ∃ q, Text p.text (.query q) ∧ n = .mk (.query q) p.name p.cols

end Treeno.Spec
