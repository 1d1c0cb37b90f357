import Verif.Spec.Grouping
import Verif.Props.RoundTripProps
/-!
# C15: parentheses

Part one: which operands are put in parentheses, exactly.  Part two: an operator over operands that can be
read back is read back as that operator over those operands.  The witnesses for the operands whose
parentheses are forgotten are in Props/RoundTripLimits.lean.
-/
set_option autoImplicit false
namespace Treeno.Props
open Spec

/-! ## Which operands are wrapped -/

theorem needs_left (op : BinOp) (l : Expr) (h : l.level < leftLevel op) (hx : leftForgotten op l = false) :
    needsParen op.prec l.prec true = true := by
  cases op <;> cases l <;> first
    | rfl
    | exact Bool.noConfusion (show true = false from hx)
    | (rename_i o2 a b; cases o2 <;> first | rfl | exact Bool.noConfusion (show true = false from hx) | (revert h; simp [Expr.level, leftLevel, opLevel]))
    | (exfalso; revert h; simp [Expr.level, leftLevel]; try (split <;> omega))

theorem needs_right (op : BinOp) (r : Expr) (h : r.level < rightLevel op) (hx : rightForgotten op r = false) :
    needsParen op.prec r.prec false = true := by
  cases op <;> cases r <;> first
    | rfl
    | exact Bool.noConfusion (show true = false from hx)
    | (rename_i o2 a b; cases o2 <;> first | rfl | exact Bool.noConfusion (show true = false from hx) | (revert h; simp [Expr.level, rightLevel, opLevel]))
    | (exfalso; revert h; simp [Expr.level, rightLevel]; try (split <;> omega))

theorem needs_pred (v : Expr) (h : v.level < 4) (hx : predForgotten v = false) : needsParen (some 3) v.prec true = true := by
  cases v <;> first
    | rfl
    | exact Bool.noConfusion (show true = false from hx)
    | (rename_i o2 a b; cases o2 <;> first | rfl | exact Bool.noConfusion (show true = false from hx) | (revert h; simp [Expr.level, opLevel]))
    | (exfalso; revert h; simp [Expr.level]; try (split <;> omega))

theorem needs_not (v : Expr) (h : v.level < 2) (hx : isLambda v = false) : needsParen (some 2) v.prec true = true := by
  cases v <;> first
    | rfl
    | exact Bool.noConfusion (show true = false from hx)
    | (rename_i o2 a b; cases o2 <;> first | rfl | exact Bool.noConfusion (show true = false from hx) | (revert h; simp [Expr.level, opLevel]))
    | (exfalso; revert h; simp [Expr.level]; try (split <;> omega))

theorem needs_sign (v : Expr) (h : v.level < 7) (hx : unranked v = false) : needsParen (some 8) v.prec true = true := by
  cases v <;> first
    | rfl
    | exact Bool.noConfusion (show true = false from hx)
    | (rename_i o2 a b; cases o2 <;> first | rfl | exact Bool.noConfusion (show true = false from hx) | (revert h; simp [Expr.level, opLevel]))
    | (exfalso; revert h; simp [Expr.level]; try (split <;> omega))

/-- The text of an operand: in parentheses or as it is. -/
theorem operand {cur : Option Nat} {left : Bool} {v : Expr} {o : Opts} {a : Str}
    (h : pemdas cur v.prec left (v.sqlN false o) (v.sqlN false dfltOpts) = .ok a) :
    (needsParen cur v.prec left = true → Wrapped v a) ∧ (needsParen cur v.prec left = false → v.sql o = .ok a) := by
  rw [pemdas_eq] at h
  constructor <;> intro hn
  · rw [hn, if_pos rfl] at h
    cases hd : v.sqlN false dfltOpts with
    | error e => rw [hd] at h; exact nomatch h
    | ok d =>
      rw [hd] at h
      refine ⟨d, hd, ?_⟩
      rw [← Except.ok.inj h]
      rfl
  · rw [hn, if_neg nofun] at h
    exact h

theorem none_left (op : BinOp) (l : Expr) (hx : leftForgotten op l = true) : needsParen op.prec l.prec true = false := by
  unfold leftForgotten unranked at hx
  by_cases hd : op = .distinct
  · rw [hd]; rfl
  · cases l <;> first
      | (simp [isLambda, isDistinct, isComparison, hd] at hx; done)
      | (cases op <;> rfl)
      | (rename_i o2 a b; cases o2 <;> first
          | (cases op <;> rfl)
          | (simp [isLambda, isDistinct, isComparison, hd] at hx; done)
          | (cases op <;> first | rfl | (simp [isLambda, isDistinct, isComparison, comparison] at hx; done)))

theorem none_right (op : BinOp) (r : Expr) (hx : rightForgotten op r = true) : needsParen op.prec r.prec false = false := by
  unfold rightForgotten unranked at hx
  by_cases hd : op = .distinct
  · rw [hd]; rfl
  · cases r <;> first
      | (simp [isLambda, isDistinct, hd] at hx; done)
      | (cases op <;> rfl)
      | (rename_i o2 a b; cases o2 <;> first
          | (cases op <;> rfl)
          | (simp [isLambda, isDistinct, hd] at hx; done))

/-- **C15 (operators).** The text of an operator is the texts of its operands around the words of the
operator.  An operand that needs parentheses has them, except for the forgotten ones, which never have any:
lambda expressions, `IS DISTINCT FROM` and its operands, and comparisons as left operands of comparisons. -/
theorem C15_operator_operands_partial (op : BinOp) (l r : Expr) (o : Opts) (s : Str) (h : (Expr.bin op l r).sql o = .ok s) :
    ∃ a m b, s = a ++ m ++ b ∧ (toks m).map Tok.text = opWords op ∧
      (l.level < leftLevel op → leftForgotten op l = false → Wrapped l a) ∧
      (r.level < rightLevel op → rightForgotten op r = false → Wrapped r b) ∧
      (leftForgotten op l = true → l.sql o = .ok a) ∧ (rightForgotten op r = true → r.sql o = .ok b) := by
  unfold Expr.sql at h
  rw [Expr_sqlN_bin] at h
  obtain ⟨a, ha, h⟩ := bind_ok h
  obtain ⟨b, hb, h⟩ := bind_ok h
  have hl := operand ha
  have hr := operand hb
  have hrest : ∀ m, (toks m).map Tok.text = opWords op → s = a ++ m ++ b → _ := fun m hm hs =>
    (⟨a, m, b, hs, hm, fun h1 h2 => hl.1 (needs_left op l h1 h2), fun h1 h2 => hr.1 (needs_right op r h1 h2),
      fun h1 => hl.2 (none_left op l h1), fun h1 => hr.2 (none_right op r h1)⟩ :
      ∃ a m b, s = a ++ m ++ b ∧ (toks m).map Tok.text = opWords op ∧
      (l.level < leftLevel op → leftForgotten op l = false → Wrapped l a) ∧
      (r.level < rightLevel op → rightForgotten op r = false → Wrapped r b) ∧
      (leftForgotten op l = true → l.sql o = .ok a) ∧ (rightForgotten op r = true → r.sql o = .ok b))
  have hs : binText o false op a b = s := Except.ok.inj h
  cases op
  case and => exact hrest (spacing o ++ c% "AND ") (by unfold spacing; split <;> decide +kernel) (by rw [← hs]; simp [binText])
  case or => exact hrest (spacing o ++ c% "OR ") (by unfold spacing; split <;> decide +kernel) (by rw [← hs]; simp [binText])
  case distinct => exact hrest (c% " IS DISTINCT FROM ") (by decide +kernel) hs.symm
  all_goals exact hrest _ (by decide +kernel) hs.symm

/-- **C15 (NOT).** -/
theorem C15_not_operand_partial (v : Expr) (o : Opts) (s : Str) (hn : v.negatable = false) (h : (Expr.not v).sql o = .ok s) :
    ∃ a, s = c% "NOT " ++ a ∧ (v.level < 2 → isLambda v = false → Wrapped v a) := by
  unfold Expr.sql at h
  rw [Expr_sqlN_not, hn, if_neg nofun] at h
  obtain ⟨a, ha, h⟩ := bind_ok h
  exact ⟨a, (Except.ok.inj h).symm, fun h1 h2 => (operand ha).1 (needs_not v h1 h2)⟩

/-- **C15 (signs).** -/
theorem C15_sign_operand_partial (op : UnOp) (v : Expr) (o : Opts) (s : Str) (h : (Expr.un op v).sql o = .ok s) :
    ∃ a, s = (if op = .neg then c% "-" else c% "+") ++ a ∧ (v.level < 7 → unranked v = false → Wrapped v a) := by
  unfold Expr.sql at h
  rw [Expr_sqlN_un] at h
  obtain ⟨a, ha, h⟩ := bind_ok h
  refine ⟨a, ?_, fun h1 h2 => (operand ha).1 (needs_sign v h1 h2)⟩
  rw [← Except.ok.inj h]
  cases op <;> rfl

/-- **C15 (IS NULL).** Comparisons, predicates, `IS DISTINCT FROM` and lambda expressions are left without
parentheses. -/
theorem C15_isnull_operand_partial (v : Expr) (o : Opts) (s : Str) (h : (Expr.isNull v).sql o = .ok s) :
    ∃ a, s = a ++ c% " IS NULL" ∧ (v.level < 4 → predForgotten v = false → Wrapped v a) := by
  unfold Expr.sql at h
  rw [Expr_sqlN_isNull] at h
  obtain ⟨a, ha, h⟩ := bind_ok h
  exact ⟨a, (Except.ok.inj h).symm, fun h1 h2 => (operand ha).1 (needs_pred v h1 h2)⟩

/-- **C15 (BETWEEN).** -/
theorem C15_between_operands_partial (v l u : Expr) (o : Opts) (s : Str) (h : (Expr.between v l u).sql o = .ok s) :
    ∃ a b c, s = a ++ c% " BETWEEN " ++ b ++ c% " AND " ++ c ∧ (v.level < 4 → predForgotten v = false → Wrapped v a) ∧
      (l.level < 4 → predForgotten l = false → Wrapped l b) ∧ (u.level < 4 → predForgotten u = false → Wrapped u c) := by
  unfold Expr.sql at h
  rw [Expr_sqlN_between] at h
  obtain ⟨a, ha, h⟩ := bind_ok h
  obtain ⟨b, hb, h⟩ := bind_ok h
  obtain ⟨c, hc, h⟩ := bind_ok h
  refine ⟨a, b, c, ?_, fun h1 h2 => (operand ha).1 (needs_pred v h1 h2), fun h1 h2 => (operand hb).1 (needs_pred l h1 h2),
    fun h1 h2 => (operand hc).1 (needs_pred u h1 h2)⟩
  rw [← Except.ok.inj h]
  simp [notText]

/-- **C15 (IN).** -/
theorem C15_in_operand_partial (v : Expr) (es : List Expr) (o : Opts) (s : Str) (h : (Expr.inList v es).sql o = .ok s) :
    ∃ a b, s = a ++ c% " IN (" ++ b ++ c% ")" ∧ (v.level < 4 → predForgotten v = false → Wrapped v a) := by
  unfold Expr.sql at h
  rw [Expr_sqlN_inList] at h
  obtain ⟨xs, _, h⟩ := bind_ok h
  obtain ⟨b, _, h⟩ := bind_ok h
  obtain ⟨a, ha, h⟩ := bind_ok h
  refine ⟨a, b, ?_, fun h1 h2 => (operand ha).1 (needs_pred v h1 h2)⟩
  rw [← Except.ok.inj h]
  simp [notText]

/-- **C15 (IN with a query).** -/
theorem C15_in_query_operand_partial (v : Expr) (q : Query) (o : Opts) (s : Str) (h : (Expr.inQuery v q).sql o = .ok s) :
    ∃ a b, s = a ++ c% " IN (" ++ b ++ c% ")" ∧ (v.level < 4 → predForgotten v = false → Wrapped v a) := by
  unfold Expr.sql at h
  rw [Expr_sqlN_inQuery] at h
  obtain ⟨a, ha, h⟩ := bind_ok h
  obtain ⟨b, _, h⟩ := bind_ok h
  refine ⟨a, b, ?_, fun h1 h2 => (operand ha).1 (needs_pred v h1 h2)⟩
  rw [← Except.ok.inj h]
  simp [notText]

/-- **C15 (LIKE).** -/
theorem C15_like_operands_partial (v p : Expr) (e : Option Expr) (o : Opts) (s : Str) (h : (Expr.like v p e).sql o = .ok s) :
    ∃ a b x, s = a ++ c% " LIKE " ++ b ++ x ∧ (v.level < 4 → predForgotten v = false → Wrapped v a) ∧
      (p.level < 4 → predForgotten p = false → Wrapped p b) := by
  unfold Expr.sql at h
  rw [Expr_sqlN_like] at h
  obtain ⟨a, ha, h⟩ := bind_ok h
  obtain ⟨b, hb, h⟩ := bind_ok h
  obtain ⟨c, _, h⟩ := bind_ok h
  refine ⟨a, b, optText (c% " ESCAPE ") c, ?_, fun h1 h2 => (operand ha).1 (needs_pred v h1 h2),
    fun h1 h2 => (operand hb).1 (needs_pred p h1 h2)⟩
  rw [← Except.ok.inj h]
  simp [notText]

/-! ## Operands stay where they are -/

/-- **C15 (operators).** An operator over operands that can be read back is read back as this operator over
these operands, for every pair of operators and every operand whose parentheses are not forgotten. -/
theorem C15_operator_kept_partial (op : BinOp) (l r : Expr) (o : Opts) (s : Str) (t : Ty)
    (tl : l.Tidy false) (tr : r.Tidy false) (fl : l.Fits) (fr : r.Fits)
    (xl : l.level < leftLevel op ∨ isLambda l = true → leftForgotten op l = false)
    (xr : r.level < rightLevel op ∨ isLambda r = true → rightForgotten op r = false)
    (hc : (Expr.bin op l.reread r.reread).check = .ok t) (hs : (Expr.bin op l r).sql o = .ok s) :
    expressionFromSql s = .ok (.bin op l.reread r.reread) := by
  refine C13_round_trip_partial (.bin op l r) o s t ?_ ?_ hc hs
  · rw [Expr_Tidy_bin]; exact ⟨tl, tr⟩
  · rw [Expr_Fits_bin]
    refine ⟨fl, fr, ?_, ?_⟩
    · by_cases h : l.level < leftLevel op
      · exact .inl (needs_left op l h (xl (.inl h)))
      · refine .inr ⟨Nat.le_of_not_lt h, ?_⟩
        cases hl : isLambda l with
        | false => rfl
        | true => have := xl (.inr hl); simp [leftForgotten, unranked, hl] at this
    · by_cases h : r.level < rightLevel op
      · exact .inl (needs_right op r h (xr (.inl h)))
      · refine .inr ⟨Nat.le_of_not_lt h, ?_⟩
        cases hl : isLambda r with
        | false => rfl
        | true => have := xr (.inr hl); simp [rightForgotten, unranked, hl] at this

/-- **C15 (NOT).** -/
theorem C15_not_kept_partial (v : Expr) (o : Opts) (s : Str) (t : Ty) (tv : v.Tidy false) (fv : v.Fits) (hl : isLambda v = false)
    (hc : (notOf v v.reread).check = .ok t) (hs : (Expr.not v).sql o = .ok s) :
    expressionFromSql s = .ok (notOf v v.reread) := by
  refine C13_round_trip_partial (.not v) o s t ?_ ?_ hc hs
  · rw [Expr_Tidy_not]; exact tv
  · rw [Expr_Fits_not]
    refine ⟨fv, fun _ => ?_⟩
    by_cases h : v.level < 2
    · exact .inl (needs_not v h hl)
    · exact .inr ⟨Nat.le_of_not_lt h, hl⟩

/-- **C15 (predicates).** -/
theorem C15_isnull_kept_partial (v : Expr) (o : Opts) (s : Str) (t : Ty) (tv : v.Tidy false) (fv : v.Fits) (hx : predForgotten v = false)
    (hc : (Expr.isNull v.reread).check = .ok t) (hs : (Expr.isNull v).sql o = .ok s) :
    expressionFromSql s = .ok (.isNull v.reread) := by
  refine C13_round_trip_partial (.isNull v) o s t ?_ ?_ hc hs
  · rw [Expr_Tidy_isNull]; exact tv
  · rw [Expr_Fits_isNull]
    refine ⟨fv, ?_⟩
    by_cases h : v.level < 4
    · exact .inl (needs_pred v h hx)
    · refine .inr ⟨Nat.le_of_not_lt h, ?_⟩
      cases hl : isLambda v with
      | false => rfl
      | true => simp [predForgotten, unranked, hl] at hx

/-- Both kinds of parentheses at work: `(a OR b) AND (c - (d - 1) < 2)`. -/
theorem C15_reached :
    let l := Expr.bin .or (col (c% "a")) (col (c% "b"))
    let r := Expr.bin .lt (.bin .sub (col (c% "c")) (.bin .sub (col (c% "d")) (num 1))) (num 2)
    l.level < leftLevel .and ∧ leftForgotten .and l = false ∧ rightForgotten .and r = false ∧ l.Tidy false ∧ r.Tidy false ∧
    l.Fits ∧ r.Fits ∧ (Expr.bin .and l.reread r.reread).check = .ok .boolean ∧
    (Expr.bin .and l r).sql {} = .ok (c% "(\"a\" OR \"b\") AND \"c\" - (\"d\" - 1) < 2") :=
  ⟨by decide, rfl, rfl, by decide +kernel, by decide +kernel, by decide +kernel, by decide +kernel, rfl, rfl⟩

end Treeno.Props
