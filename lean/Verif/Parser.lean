import Verif.Lemmas.ParseMono
/-!
# The parser as a least fixed point

`P` is the least family of parsers with `P = pStep P`: the recursive-descent parser without any bound on
the nesting.  `parserN n` are its approximations, which can be run.
-/
namespace Treeno
open Lean.Order

/-- The parser. -/
noncomputable def P : Rec := fix pStep pStep_mono

theorem P_eq : P = pStep P := fix_eq pStep_mono

/-- What an approximation finds, the parser finds. -/
theorem parserN_le : ∀ n, parserN n ⊑ P
  | 0 => fun _ _ => FlatOrder.rel.bot
  | n + 1 => by
    rw [P_eq]
    exact pStep_mono _ _ (parserN_le n)

theorem P_of_parserN {n : Nat} {nt : NT} {ts : List Tok} {x : nt.Out × List Tok}
    (h : parserN n nt ts = some x) : P nt ts = some x := by
  have h' : parserN n nt ts ⊑ P nt ts := parserN_le n nt ts
  rw [h] at h'
  generalize P nt ts = y at h' ⊢
  cases h'
  rfl

/-- Properties of the results of `P` follow from properties preserved by one step. -/
theorem P_induct (Q : (nt : NT) → List Tok → nt.Out × List Tok → Prop)
    (step : ∀ r : Rec, (∀ nt ts x, r nt ts = some x → Q nt ts x) →
      ∀ nt ts x, pStep r nt ts = some x → Q nt ts x) :
    ∀ nt ts x, P nt ts = some x → Q nt ts x := by
  refine fix_induct pStep_mono (fun r => ∀ nt ts x, r nt ts = some x → Q nt ts x) ?_ step
  exact admissible_pi_apply _ fun nt => admissible_pi_apply _ fun ts => admissible_pi _ fun x =>
    Option.admissible_eq_some _ _

end Treeno
