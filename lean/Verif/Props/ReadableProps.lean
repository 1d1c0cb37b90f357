import Verif.Props.RoundTripLimits
import Verif.Props.ReadValidProps
/-!
# C13, C27: exactly which texts are read back

With C76 the condition of C13 and C27 that the identified tree can be built is not only sufficient: for trees in the
round-trip fragment it holds exactly if the text is read as that tree.
-/
set_option autoImplicit false
namespace Treeno.Props
open Spec

/-- **C13.** The text of an expression is read as the expression, up to the identifications, exactly if its constructors accept
it without the types that the text does not show. -/
theorem C13_readable_partial (e : Expr) (o : Opts) (s : Str) (ht : e.Tidy false) (hf : e.Fits) (hs : e.sql o = .ok s) :
    expressionFromSql s = .ok e.reread ↔ ∃ t, e.reread.check = .ok t :=
  ⟨C76_expression s _, fun ⟨t, hc⟩ => C13_round_trip_partial e o s t ht hf hc hs⟩

/-- **C27.** The same for queries. -/
theorem C27_readable_partial (q : Query) (o : Opts) (s : Str) (ht : q.Tidy) (hf : q.Fits) (hs : q.sql o = .ok s) :
    queryFromSql s = .ok (some q.reread) ↔ ∃ t, q.reread.check = .ok t :=
  ⟨C76_query s _, fun ⟨t, hc⟩ => C27_round_trip_partial q o s t ht hf hc hs⟩

/-- **C27.** Two queries with the same text, printed with whatever options, are the same up to the identifications. -/
theorem C27_text_determines_tree_partial (q q' : Query) (o o' : Opts) (s : Str) (t t' : Ty) (ht : q.Tidy) (hf : q.Fits)
    (hc : q.reread.check = .ok t) (ht' : q'.Tidy) (hf' : q'.Fits) (hc' : q'.reread.check = .ok t') (hs : q.sql o = .ok s)
    (hs' : q'.sql o' = .ok s) : q.reread = q'.reread := by
  have h1 := C27_round_trip_partial q o s t ht hf hc hs
  rw [C27_round_trip_partial q' o' s t' ht' hf' hc' hs'] at h1
  exact (Option.some.inj (Except.ok.inj h1)).symm

/-- Both sides of C13 fail for the tree of `C13_types_forgotten`, which is tidy and fits. -/
example : let e := Expr.func .if_ [col (c% "c"), .field (c% "a") none (.simple .integer), num 1]
    e.Tidy false ∧ e.Fits ∧ (∃ t, e.check = .ok t) ∧ ¬ ∃ t, e.reread.check = .ok t := by
  refine ⟨by decide +kernel, by decide +kernel, ⟨_, rfl⟩, ?_⟩
  rintro ⟨t, h⟩
  cases h

example : ∃ s, bigQuery.sql {} = .ok s ∧ queryFromSql s = .ok (some bigQuery.reread) :=
  ⟨_, rfl, (C27_readable_partial bigQuery {} _ (by decide +kernel) (by decide +kernel) rfl).2 ⟨_, rfl⟩⟩

end Treeno.Props
