import Verif.Lemmas.ConvEqs
import Verif.Lemmas.KeptEqs
import Verif.Lemmas.TypeText
/-!
# Visits that return `None`
-/
namespace Treeno

theorem drop_ok {α} {b : Bool} {x : Except Err (Option α)} {a : Option α} (h : x = .ok a) : dropNone b x = .ok a := by
  subst h; rfl

/-- Something dropped, or nothing happened. -/
theorem drop_inv {α} {b : Bool} {x : Except Err (Option α)} {a : Option α} (h : dropNone b x = .ok a) :
    x = .ok a ∨ (b = true ∧ a = none ∧ x = .error .noneValue) := by
  cases x with
  | ok y => exact .inl h
  | error e =>
    cases e
    case noneValue =>
      cases b
      · exact nomatch h
      · exact .inr ⟨rfl, (Except.ok.inj h).symm, rfl⟩
    all_goals exact nomatch h

theorem visited_inv {b : Bool} {x : Except Err Expr} {a : Option Expr} (h : visited b x = .ok a) :
    (∃ e, x = .ok e ∧ a = some e) ∨ (b = true ∧ a = none ∧ x = .error .noneValue) := by
  cases x with
  | ok y => exact .inl ⟨y, rfl, (Except.ok.inj h).symm⟩
  | error e =>
    rcases drop_inv h with h | h
    · exact nomatch h
    · exact .inr ⟨h.1, h.2.1, by cases e <;> first | rfl | exact nomatch h.2.2⟩

/-- Such a visit has no value. -/
theorem isNone_conv : ∀ (c : CE), c.isNone = true → ∀ e, c.conv ≠ .ok e
  | .paren c, h, e, he => isNone_conv c h e (by rw [CE_conv_paren] at he; exact he)
  | .binary _, _, e, h => by rw [CE_conv_binary] at h; exact nomatch h
  | .exists_ _, _, e, h => by
    rw [CE_conv_exists_] at h
    obtain ⟨_, _, h⟩ := bind_ok h
    exact nomatch h
  | .position _ _, _, e, h => by
    rw [CE_conv_position] at h
    obtain ⟨_, _, h⟩ := bind_ok h
    obtain ⟨_, _, h⟩ := bind_ok h
    exact nomatch h
  | .substring _ _ _, _, e, h => by
    rw [CE_conv_substring] at h
    obtain ⟨_, _, h⟩ := bind_ok h
    obtain ⟨_, _, h⟩ := bind_ok h
    obtain ⟨_, _, h⟩ := bind_ok h
    exact nomatch h
  | .extract _ _, _, e, h => by
    rw [CE_conv_extract] at h
    obtain ⟨_, _, h⟩ := bind_ok h
    obtain ⟨_, _, h⟩ := bind_ok h
    exact nomatch h
  | .trimFrom _ _ _, _, e, h => by
    rw [CE_conv_trimFrom] at h
    obtain ⟨_, _, h⟩ := bind_ok h
    obtain ⟨_, _, h⟩ := bind_ok h
    exact nomatch h
  | .trim _ _, _, e, h => by
    rw [CE_conv_trim] at h
    obtain ⟨_, _, h⟩ := bind_ok h
    obtain ⟨_, _, h⟩ := bind_ok h
    exact nomatch h
  | .grouping _, _, e, h => by
    rw [CE_conv_grouping] at h
    obtain ⟨_, _, h⟩ := bind_ok h
    exact nomatch h
  | .or_ .., h, _, _ | .and_ .., h, _, _ | .not_ .., h, _, _ | .cmp .., h, _, _ | .between .., h, _, _ | .inList .., h, _, _
  | .inSub .., h, _, _ | .like .., h, _, _ | .isNull .., h, _, _ | .distinct .., h, _, _ | .concat .., h, _, _
  | .arith .., h, _, _ | .sign .., h, _, _ | .null, h, _, _ | .interval .., h, _, _ | .typeCtor .., h, _, _
  | .doublePrecision .., h, _, _ | .num .., h, _, _ | .bool .., h, _, _ | .str .., h, _, _ | .quantified .., h, _, _ | .atZone .., h, _, _
  | .param, h, _, _ | .row .., h, _, _ | .rowKw .., h, _, _ | .listagg .., h, _, _ | .callStar .., h, _, _ | .call .., h, _, _
  | .lam .., h, _, _ | .sub .., h, _, _ | .case .., h, _, _ | .cast .., h, _, _ | .array .., h, _, _ | .subscript .., h, _, _
  | .col .., h, _, _ | .deref .., h, _, _ | .dateTime .., h, _, _ | .session .., h, _, _ | .normalize .., h, _, _ =>
    Bool.noConfusion h

/-- Nothing that is kept is dropped. -/
theorem kept_isNone : ∀ (c : CE), c.kept = true → c.isNone = false
  | .paren e, h => kept_isNone e (by rw [CE_kept_paren] at h; exact h)
  | .binary _, h => nomatch h
  | .atZone _ _, h => nomatch h
  | .exists_ _, h => nomatch h
  | .position _ _, h => nomatch h
  | .substring _ _ _, h => nomatch h
  | .extract _ _, h => nomatch h
  | .trimFrom _ _ _, h => nomatch h
  | .trim _ _, h => nomatch h
  | .grouping _, h => nomatch h
  | .or_ .., _ | .and_ .., _ | .not_ .., _ | .cmp .., _ | .between .., _ | .inList .., _ | .inSub .., _ | .like .., _
  | .isNull .., _ | .distinct .., _ | .concat .., _ | .arith .., _ | .sign .., _ | .null, _ | .interval .., _
  | .typeCtor .., _ | .doublePrecision .., _ | .num .., _ | .bool .., _ | .str .., _ | .quantified .., _ | .param, _
  | .row .., _ | .rowKw .., _ | .listagg .., _ | .callStar .., _ | .call .., _ | .lam .., _ | .sub .., _ | .case .., _
  | .cast .., _ | .array .., _ | .subscript .., _ | .col .., _ | .deref .., _ | .dateTime .., _ | .session .., _
  | .normalize .., _ => rfl

theorem drop_kept {c : Option CE} {e : Option Expr} (hk : CE.keptOpt c = true)
    (h : dropNone (CE.isNoneOpt c) (CE.convOpt c) = .ok e) : CE.convOpt c = .ok e := by
  rcases drop_inv h with h | ⟨h, -, -⟩
  · exact h
  · cases c with
    | none => exact nomatch h
    | some c => exact nomatch (kept_isNone c hk).symm.trans h

end Treeno
