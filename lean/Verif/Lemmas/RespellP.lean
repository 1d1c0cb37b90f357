import Verif.Parser
import Verif.Lemmas.RespellParse
/-!
# The parser does not depend on the case of keywords
-/
namespace Treeno
open Lean.Order

/-- What a supremum of parsers finds, one of them finds. -/
theorem csup_some {c : Rec → Prop} (hc : chain c) {nt : NT} {ts : List Tok} {x : nt.Out × List Tok}
    (h : CCPO.csup hc nt ts = some x) : ∃ r, c r ∧ r nt ts = some x := by
  have ha : admissible (fun r : Rec => ∀ nt ts x, r nt ts = some x → ∃ r, c r ∧ r nt ts = some x) :=
    admissible_pi_apply _ fun nt => admissible_pi_apply _ fun ts => admissible_pi _ fun x =>
      Option.admissible_eq_some _ _
  exact ha c hc (fun r hr nt ts x hx => ⟨r, hr, hx⟩) nt ts x h

theorem some_csup {c : Rec → Prop} (hc : chain c) {r : Rec} (hr : c r) {nt : NT} {ts : List Tok}
    {x : nt.Out × List Tok} (h : r nt ts = some x) : CCPO.csup hc nt ts = some x := by
  have h' : r nt ts ⊑ CCPO.csup hc nt ts := le_csup hc hr nt ts
  rw [h] at h'
  generalize CCPO.csup hc nt ts = y at h' ⊢
  cases h'
  rfl

theorem P_nat {σ : Tok → Tok} (h : Keeps σ) : PNat σ P := by
  refine fix_induct pStep_mono (PNat σ) ?_ (fun r hr => pStep_nat h hr)
  intro c hc hall nt ts
  cases e : CCPO.csup hc nt ts with
  | some x =>
    obtain ⟨r, hr, hx⟩ := csup_some hc e
    refine some_csup hc hr ?_
    rw [hall r hr, hx]
    rfl
  | none =>
    cases e' : CCPO.csup hc (nt.respell σ) (ts.map σ) with
    | none => rfl
    | some y =>
      obtain ⟨r, hr, hy⟩ := csup_some hc e'
      rw [hall r hr] at hy
      cases hx : r nt ts with
      | none => rw [hx] at hy; cases hy
      | some x => rw [some_csup hc hr hx] at e; cases e

end Treeno
