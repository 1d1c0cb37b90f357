import Verif.Sql
/-!
# Specification of the text of a query

A query is a sequence of clauses in SQL order.  `Clause` says which keyword a clause starts with,
when it is present and what may follow the keyword.
-/
namespace Treeno.Spec
open Treeno

/-- The two lists have the same length and corresponding elements are related. -/
inductive All2 {α β : Type} (r : α → β → Prop) : List α → List β → Prop
  | nil : All2 r [] []
  | cons {a b as bs} : r a b → All2 r as bs → All2 r (a :: as) (b :: bs)

structure Clause where
  key : Str
  present : Prop
  text : Str → Prop

/-- `v` is the comma-separated list (C19, C20) of texts of the elements of `xs`, after `pre`. -/
def ListOf {α : Type} (o : Opts) (pre : Str) (sql : α → Str → Prop) (xs : List α) (v : Str) : Prop :=
  ∃ ss j, All2 sql xs ss ∧ joinStmts ss o = .ok j ∧ v = pre ++ j

/-- The name, AS, and the window in parentheses. -/
def NamedWindow (o : Opts) (w : Str × Win) (s : Str) : Prop :=
  ∃ t, w.2.sql o = .ok t ∧ s = w.1 ++ c% " AS (" ++ t ++ c% ")"

def hasWith (o : Opts) (w : List Named) : Clause where
  key := c% "WITH"
  present := w ≠ []
  text := ListOf o [] (fun n s => n.namedSql o = .ok s) w

def hasOrder (o : Opts) (ob : List Ord) : Clause where
  key := c% "ORDER"
  present := ob ≠ []
  text := ListOf o (c% "BY ") (fun t s => t.sql o = .ok s) ob

/-- OFFSET and LIMIT: the count. -/
def hasRows (key : Str) (n : Option Int) : Clause where
  key := key
  present := ∃ k, n = some k ∧ k ≠ 0
  text v := ∃ k, n = some k ∧ v = intStr k

def hasSelect (o : Opts) (distinct : Bool) (items : List Expr) : Clause where
  key := c% "SELECT"
  present := True
  text := ListOf o (if distinct then c% "DISTINCT " else []) (fun e s => e.sql o = .ok s) items

/-- FROM: the relation; a query stands in parentheses. -/
def hasFrom (o : Opts) (r : Option Rel) : Clause where
  key := c% "FROM"
  present := r ≠ none
  text v := ∃ r', r = some r' ∧ ((∀ q, r' ≠ .query q) ∧ r'.sql o = .ok v ∨
    ∃ q s, r' = .query q ∧ q.sql o = .ok s ∧ v = pad (c% "(" ++ s ++ c% ")") 1)

/-- WHERE and HAVING: the condition. -/
def hasCondition (o : Opts) (key : Str) (e : Option Expr) : Clause where
  key := key
  present := e ≠ none
  text v := ∃ e', e = some e' ∧ e'.sql o = .ok v

def hasGroup (o : Opts) (g : Option GroupBy) : Clause where
  key := c% "GROUP"
  present := g ≠ none
  text v := ∃ g' s, g = some g' ∧ g'.sql o = .ok s ∧ v = c% "BY " ++ s

def hasWindow (o : Opts) (ws : List (Str × Win)) : Clause where
  key := c% "WINDOW"
  present := ws ≠ []
  text := ListOf o [] (NamedWindow o) ws

/-- The clauses of a query that is not a set operation, in SQL order. -/
def clauses (o : Opts) : Query → List Clause
  | .mk (.select items fr wh gb hv d wins) off lim ob w =>
    [hasWith o w, hasSelect o d items, hasFrom o fr, hasCondition o (c% "WHERE") wh, hasGroup o gb,
      hasCondition o (c% "HAVING") hv, hasWindow o wins, hasOrder o ob, hasRows (c% "OFFSET") off,
      hasRows (c% "LIMIT") lim]
  | .mk (.table t) off lim ob w =>
    [hasWith o w, ⟨c% "TABLE", True, fun v => v = t.sql⟩, hasOrder o ob, hasRows (c% "OFFSET") off,
      hasRows (c% "LIMIT") lim]
  | .mk (.values es) off lim ob w =>
    [hasWith o w, ⟨c% "VALUES", True, ListOf o [] (fun e s => e.sql o = .ok s) es⟩, hasOrder o ob,
      hasRows (c% "OFFSET") off, hasRows (c% "LIMIT") lim]
  | .mk (.set _ _ _ _) _ _ _ _ => []

/-- The entries are the texts of exactly the clauses that are present, in order. -/
inductive Filled : List Clause → List (Str × Str) → Prop
  | nil : Filled [] []
  | absent {c cs es} : ¬ c.present → Filled cs es → Filled (c :: cs) es
  | present {c : Clause} {v : Str} {cs es} : c.present → c.text v → Filled cs es →
      Filled (c :: cs) ((c.key, v) :: es)

/-- One clause: keyword, blank, text. -/
def clauseText (e : Str × Str) : Str := e.1 ++ (if e.2 = [] then [] else c% " " ++ e.2)

/-- One clause with the keyword ending in column `col` and its further lines to the right of it. -/
def riverText (col : Nat) (e : Str × Str) : Str :=
  spaces (col - e.1.length) ++ clauseText (e.1, pad e.2 (col + 1))

/-- The clauses one after another: separated by a blank in default mode, one per line with aligned
keywords in pretty mode. -/
def layout (mode : Mode) (col : Nat) (es : List (Str × Str)) : Str :=
  match mode with
  | .default => join (c% " ") (es.map clauseText)
  | .pretty => join (c% "\n") (es.map (riverText col))

end Treeno.Spec
