import Verif.Lemmas.Prints
import Verif.Props.RoundTripProps
/-!
# C56: what the constructors accept can be printed
-/
set_option autoImplicit false
namespace Treeno.Props
open Spec

/-- **C56, partial.** A value that its constructors accepted is printed, in either mode and with any indentation below
80, exactly if no NORMALIZE occurs in the printed part and no window refers to a parent window that is named like the
first word of one of its own clauses (`Spec.Printable`).  Missing: the trees that are not `Printable` and indentations
from 80 on; for these the claim is false, see below. -/
theorem C56_printed_partial (e : Expr) (t : Ty) (o : Opts) (hc : e.check = .ok t) (ho : o.spaces < 80) :
    (∃ s, e.sql o = .ok s) ↔ e.Printable :=
  ⟨fun ⟨_, h⟩ => hs_Expr e false o h, fun h => sh_Expr e ⟨t, hc⟩ h false o ho⟩

/-- The same for queries. -/
theorem C56_query_partial (q : Query) (t : Ty) (o : Opts) (hc : q.check = .ok t) (ho : o.spaces < 80) :
    (∃ s, q.sql o = .ok s) ↔ q.Printable :=
  ⟨fun ⟨_, h⟩ => hs_Query q o h, fun h => sh_Query q ⟨t, hc⟩ h o ho⟩

/-- The same for relations. -/
theorem C56_relation_partial (r : Rel) (o : Opts) (hc : r.check = .ok ()) (ho : o.spaces < 80) :
    (∃ s, r.sql o = .ok s) ↔ r.Printable :=
  ⟨fun ⟨_, h⟩ => hs_Rel r o h, fun h => sh_Rel r ⟨(), hc⟩ h o ho⟩

/-- Whether a query is printed depends neither on the mode nor on the indentation. -/
theorem C56_same_for_all_options (q : Query) (t : Ty) (o o' : Opts) (hc : q.check = .ok t) (ho : o.spaces < 80)
    (ho' : o'.spaces < 80) (h : ∃ s, q.sql o = .ok s) : ∃ s, q.sql o' = .ok s :=
  (C56_query_partial q t o' hc ho').2 ((C56_query_partial q t o hc ho).1 h)

/-- What is printed is `Printable`, whether or not its constructors would accept it. -/
theorem C56_printed_is_printable (q : Query) (o : Opts) (s : Str) (h : q.sql o = .ok s) : q.Printable :=
  hs_Query q o h

/-- `SELECT SUM("a") FILTER (WHERE TRUE) OVER (w PARTITION BY "b" …) FROM "t" NATURAL LEFT JOIN "u"` -/
def clashFree (parent : Str) : Query :=
  .mk (.select [.agg .sum [col (c% "a")] [] (some (.lit (some (.bool true)) .boolean))
      (some (.mk (some parent) [.mk (col (c% "a")) true false] [col (c% "b")] .rows (.unbounded .preceding) .current)) false]
    (some (.join (.table { name := c% "t" }) (.table { name := c% "u" }) .left true none)) none none none false []) none (some 3) [] []

example : (clashFree (c% "w")).Printable :=
  ⟨⟨⟨⟨⟨trivial, trivial⟩, trivial, trivial, ⟨⟨trivial, trivial⟩, ⟨trivial, trivial⟩, trivial, trivial, by
      intro n hn _
      cases hn
      decide⟩⟩, trivial⟩, ⟨trivial, trivial, trivial⟩, trivial, trivial, trivial, trivial⟩, trivial, trivial⟩
example : (clashFree (c% "w")).check = .ok .unknown := rfl
example : bigQuery.Printable := C56_printed_is_printable bigQuery dfltOpts _ rfl

/-- **C56, negative.** NORMALIZE is accepted and never printed: `sql` calls `to_sql`, which does not exist. -/
theorem C56_normalize_false (v : Expr) (t : Ty) (f : Option NormalForm) (o : Opts) (hv : v.check = .ok t) :
    (Expr.normalize v f).check = .ok (.varchar none) ∧ (Expr.normalize v f).sql o = .error .attributeError := by
  refine ⟨?_, rfl⟩
  rw [Expr_check_normalize, hv]
  rfl

/-- **C56, negative.** A window whose parent is named like the first word of one of its clauses is never printed; nor is
anything that contains it.  The constructors accept such windows. -/
theorem C56_window_false (p : Option Str) (ob : List Ord) (ps : List Expr) (f : FrameType) (st en : Bound) (o : Opts) (s : Str)
    (h : ¬ParentFree p ob ps f) : (Win.mk p ob ps f st en).sql o ≠ .ok s :=
  fun hs => h (hs_Win _ o hs).2.2.2.2

theorem C56_window_reached : ∀ n ∈ [c% "PARTITION", c% "ORDER", c% "ROWS"],
    (clashFree n).check = .ok .unknown ∧ ∀ o s, (clashFree n).sql o ≠ .ok s := by
  intro n hn
  have : ∀ o s, (clashFree n).sql o ≠ .ok s := by
    intro o s h
    have := (C56_printed_is_printable _ _ _ h).1.1.1.2.2.2.2.2.2.2 n rfl (by rintro rfl; exact absurd hn (by decide))
    revert hn this
    simp only [List.mem_cons, List.not_mem_nil, or_false, frameWord]
    rintro (rfl | rfl | rfl) ⟨h1, h2, h3⟩
    · exact h1 (List.cons_ne_nil _ _) rfl
    · exact h2 (List.cons_ne_nil _ _) rfl
    · exact h3 rfl
  refine ⟨?_, this⟩
  simp only [List.mem_cons, List.not_mem_nil, or_false] at hn
  rcases hn with rfl | rfl | rfl <;> rfl

/-- **C56, negative.** From indentation 80 on no SELECT can be printed, in pretty mode and in default mode. -/
theorem C56_indentation_false (items : List Expr) (fr : Option Rel) (wh : Option Expr) (gb : Option GroupBy)
    (hv : Option Expr) (d : Bool) (wins : List (Str × Win)) (off lim : Option Int) (ob : List Ord) (w : List Named)
    (o : Opts) (ho : 80 ≤ o.spaces) (s : Str) : (Query.mk (.select items fr wh gb hv d wins) off lim ob w).sql o ≠ .ok s := by
  intro h
  replace h : Query.sql o (Query.mk (.select items fr wh gb hv d wins) off lim ob w) = .ok s := h
  rw [Query_sql_mk, QBody_sql_select] at h
  obtain ⟨_, _, h⟩ := bind_ok h
  obtain ⟨_, _, h⟩ := bind_ok h
  obtain ⟨_, hj, _⟩ := bind_ok h
  unfold joinStmts joinPrinter at hj
  rw [if_neg (Nat.not_lt.2 ho)] at hj
  cases hj

end Treeno.Props
