import Verif.Lemmas.ComposeMore
import Verif.Props.ComposeProps
/-!
# C72 continued: casts, subscripts, rows and CASE over texts
-/
set_option autoImplicit false
set_option linter.unusedVariables false
namespace Treeno.Props
open Spec

variable {s t u : Str} {a b c : Expr}

/-- **C72.** A text cast to a type that is itself given as text, whatever comments and line ends both have. -/
theorem C72_cast (try_ : Bool) (h : Text s a) {ty : Str} {T : Ty} (ht : typeFromSql ty = .ok T) :
    expressionFromSql ((if try_ then c% "TRY_CAST (" else c% "CAST (") ++ par s ++ c% " AS " ++ ty ++ c% "\n)") =
      (Expr.cast try_ a T).build := by
  obtain ⟨x, x1, x2, x3⟩ := text_is h
  unfold typeFromSql at ht
  split at ht
  · rename_i ct hc
    have := full_cast try_ x1 hc
    have he : toks (ty ++ c% "\n)") = toks ty ++ cl [] :=
      toks_next (x := c% ")") _ false ty (Nat.le_refl _) (type_clean hc)
    rw [← he] at this
    have hm : toks (c% " AS " ++ (ty ++ c% "\n)")) = kwT (c% "AS") :: toks (ty ++ c% "\n)") :=
      toks_mid (w := ['S']) rfl rfl
    rw [← hm, ← toks_par x3, ← toks_open] at this
    have hk : toks ((if try_ then c% "TRY_CAST " else c% "CAST ") ++ ('(' :: (par s ++ (c% " AS " ++ (ty ++ c% "\n)"))))) =
        kwT (if try_ then c% "TRY_CAST" else c% "CAST") :: toks ('(' :: (par s ++ (c% " AS " ++ (ty ++ c% "\n)")))) := by
      cases try_
      · exact toks_lead (t := kwT (c% "CAST")) (w := ['A', 'S', 'T']) rfl rfl
      · exact toks_lead (t := kwT (c% "TRY_CAST")) (w := ['R', 'Y', '_', 'C', 'A', 'S', 'T']) rfl rfl
    rw [← hk] at this
    have e : (if try_ then c% "TRY_CAST (" else c% "CAST (") ++ par s ++ c% " AS " ++ ty ++ c% "\n)" =
        (if try_ then c% "TRY_CAST " else c% "CAST ") ++ ('(' :: (par s ++ (c% " AS " ++ (ty ++ c% "\n)")))) := by
      cases try_ <;> simp
    rw [e, reads_as this, CE_conv_cast, x2, ht]; rfl
  · cases ht

/-- **C72.** An item of a text, at the place that another text says. -/
theorem C72_subscript (h1 : Text s a) (h2 : Text t b) :
    expressionFromSql (par s ++ c% "[" ++ par t ++ c% "]") = (Expr.subscript a b).build := by
  obtain ⟨x, x1, x2, x3⟩ := text_is h1
  obtain ⟨y, y1, y2, y3⟩ := text_is h2
  have := full_subscript x1 y1
  have hl := toks_par y3 (c% "]")
  rw [show toks (c% "]") = [symT (c% "]")] from rfl] at hl
  rw [← hl] at this
  have hb : toks ('[' :: (par t ++ c% "]")) = symT (c% "[") :: toks (par t ++ c% "]") :=
    toks_step (t := symT (c% "[")) (r := par t ++ c% "]") rfl
  rw [← hb, ← toks_par x3] at this
  have e : par s ++ c% "[" ++ par t ++ c% "]" = par s ++ ('[' :: (par t ++ c% "]")) := by simp
  rw [e, reads_as this, CE_conv_subscript, x2, y2]; rfl

/-- **C72.** A row of texts. -/
theorem C72_row {ss : List Str} {es : List Expr} (hne : ss ≠ []) (hs : Each Text ss es) :
    expressionFromSql (c% "ROW (" ++ parList ss ++ c% ")") = (Expr.row es).build := by
  obtain ⟨cs, k1, k2, k3⟩ := each_read hs
  have := full_row (by simpa using hne) k1
  have hl := toks_list k3 (c% ")")
  rw [show toks (c% ")") = cl [] from rfl] at hl
  rw [← hl, ← toks_open] at this
  have hi : toks (c% "ROW " ++ ('(' :: (parList ss ++ c% ")"))) = _ :=
    toks_lead (t := kwT (c% "ROW")) (u := '(' :: (parList ss ++ c% ")")) (w := ['O', 'W']) rfl rfl
  rw [← hi] at this
  have e : c% "ROW (" ++ parList ss ++ c% ")" = c% "ROW " ++ ('(' :: (parList ss ++ c% ")")) := by simp
  rw [e, reads_as this, CE_conv_rowKw, k2]; rfl

/-! ## CASE -/

theorem opt_read {o : Option Str} {e : Option Expr} (h : OptText o e) : ∃ cv, OptOpd (o.map toks) cv ∧ CE.convOpt cv = .ok e ∧
    (∀ s, o = some s → clean false (toks s) = true) := by
  cases h with
  | none => exact ⟨none, .none, rfl, by simp⟩
  | some h =>
    obtain ⟨x, x1, x2, x3⟩ := text_is h
    refine ⟨some x, .some x1, ?_, ?_⟩
    · show (do let a ← x.conv; Except.ok (some a)) = _
      rw [x2]; rfl
    · intro s hs; cases hs; exact x3

theorem pairs_read : ∀ {ws : List (Str × Str)} {bs : List (Expr × Expr)}, Each PairText ws bs →
    ∃ cs : List (CE × CE), Each (fun p q => Opd p.1 q.1 ∧ Opd p.2 q.2) (ws.map fun p => (toks p.1, toks p.2)) cs ∧
      CWhen.convs (cs.map fun p => .mk p.1 p.2) = .ok bs ∧
      ∀ p ∈ ws, clean false (toks p.1) = true ∧ clean false (toks p.2) = true
  | _, _, .nil => ⟨[], .nil, rfl, by simp⟩
  | _, _, .cons (b := b) h hs => by
    obtain ⟨x, x1, x2, x3⟩ := text_is h.1
    obtain ⟨y, y1, y2, y3⟩ := text_is h.2
    obtain ⟨cs, k1, k2, k3⟩ := pairs_read hs
    refine ⟨(x, y) :: cs, .cons ⟨x1, y1⟩ k1, ?_, ?_⟩
    · rw [List.map_cons, CWhen_convs_cons, x2, y2, k2]; rfl
    · intro p hp
      rcases List.mem_cons.mp hp with rfl | hp
      · exact ⟨x3, y3⟩
      · exact k3 p hp

theorem toks_whens (z : Str) : ∀ {ws : List (Str × Str)}, (∀ p ∈ ws, clean false (toks p.1) = true ∧ clean false (toks p.2) = true) →
    toks (whenText ws ++ z) = ptWhens (toks z) (ws.map fun p => (toks p.1, toks p.2))
  | [], _ => rfl
  | (s, t) :: ws, h => by
    have e : whenText ((s, t) :: ws) ++ z = c% " WHEN " ++ (par s ++ (c% " THEN " ++ (par t ++ (whenText ws ++ z)))) := by
      simp [whenText]
    have h1 : toks (c% " WHEN " ++ (par s ++ (c% " THEN " ++ (par t ++ (whenText ws ++ z))))) = _ :=
      toks_mid (t := kwT (c% "WHEN")) (u := par s ++ (c% " THEN " ++ (par t ++ (whenText ws ++ z)))) (w := ['H', 'E', 'N']) rfl rfl
    have h2 : toks (c% " THEN " ++ (par t ++ (whenText ws ++ z))) = _ :=
      toks_mid (t := kwT (c% "THEN")) (u := par t ++ (whenText ws ++ z)) (w := ['H', 'E', 'N']) rfl rfl
    have := h (s, t) (by simp)
    rw [e, h1, toks_par this.1, h2, toks_par this.2, toks_whens z (fun p hp => h p (List.mem_cons_of_mem _ hp))]
    rfl

/-- **C72.** CASE over texts: with or without an operand, any number of branches, with or without ELSE.  No part takes
a WHEN, THEN, ELSE or END of another one. -/
theorem C72_case {v u : Option Str} {ev eu : Option Expr} (hv : OptText v ev) (hu : OptText u eu) {ws : List (Str × Str)}
    {bs : List (Expr × Expr)} (hne : ws ≠ []) (hw : Each PairText ws bs) :
    expressionFromSql (c% "CASE" ++ optPar (c% " ") v ++ whenText ws ++ optPar (c% " ELSE ") u ++ c% " END") =
      (Expr.case ev bs eu).build := by
  obtain ⟨cv, v1, v2, v3⟩ := opt_read hv
  obtain ⟨cu, u1, u2, u3⟩ := opt_read hu
  obtain ⟨cs, k1, k2, k3⟩ := pairs_read hw
  have := full_case v1 (by simpa using hne) k1 u1
  have he : toks (optPar (c% " ELSE ") u ++ c% " END") = ptOpt [kwT (c% "ELSE")] [kwT (c% "END")] (u.map toks) := by
    cases u with
    | none => rfl
    | some u =>
      have e : optPar (c% " ELSE ") (some u) ++ c% " END" = c% " ELSE " ++ (par u ++ c% " END") := by simp [optPar]
      have h1 : toks (c% " ELSE " ++ (par u ++ c% " END")) = _ :=
        toks_mid (t := kwT (c% "ELSE")) (u := par u ++ c% " END") (w := ['L', 'S', 'E']) rfl rfl
      rw [e, h1, toks_par (u3 u rfl)]
      rfl
  rw [← he, ← toks_whens _ k3] at this
  have hc : toks (c% "CASE" ++ (optPar (c% " ") v ++ (whenText ws ++ (optPar (c% " ELSE ") u ++ c% " END")))) =
      kwT (c% "CASE") :: ptOpt [] (toks (whenText ws ++ (optPar (c% " ELSE ") u ++ c% " END"))) (v.map toks) := by
    cases v with
    | none =>
      match ws, hne with
      | (s, t) :: ws, _ =>
        generalize hz : par s ++ (c% " THEN " ++ (par t ++ (whenText ws ++ (optPar (c% " ELSE ") u ++ c% " END")))) = z
        have e : whenText ((s, t) :: ws) ++ (optPar (c% " ELSE ") u ++ c% " END") = c% " WHEN " ++ z := by
          rw [← hz]; simp [whenText]
        rw [e]
        show toks (c% "CASE" ++ (c% " WHEN " ++ z)) = kwT (c% "CASE") :: toks (c% " WHEN " ++ z)
        refine (toks_step (t := kwT (c% "CASE")) (r := c% " WHEN " ++ z) rfl).trans rfl
    | some v =>
      generalize whenText ws ++ (optPar (c% " ELSE ") u ++ c% " END") = z
      have e : c% "CASE" ++ (optPar (c% " ") (some v) ++ z) = c% "CASE " ++ (par v ++ z) := by simp [optPar]
      have h1 : toks (c% "CASE " ++ (par v ++ z)) = _ :=
        toks_lead (t := kwT (c% "CASE")) (u := par v ++ z) (w := ['A', 'S', 'E']) rfl rfl
      rw [e, h1, toks_par (v3 v rfl)]
      rfl
  rw [← hc] at this
  simp only [← List.append_assoc] at this
  rw [reads_as this, CE_conv_case, k2, v2, u2]
  rfl

/-! ## Cases -/

example : expressionFromSql (c% "CAST (" ++ par textA ++ c% " AS " ++ c% "ROW(bigint, date) -- pairs" ++ c% "\n)") =
    .ok (.cast false exprA (.row [.simple .bigint, .simple .date])) :=
  C72_cast false textA_read (ty := c% "ROW(bigint, date) -- pairs") (T := .row [.simple .bigint, .simple .date]) rfl

/-- The text of an array. -/
def textV : Str := c% "ARRAY[a, NULL] -- two"
def exprV : Expr := .array [col (c% "a"), .lit none .unknown]
theorem textV_read : Text textV exprV := .expr (expr_of_parserN 60 (by krfl)) (by intro q h; cases h)

example : expressionFromSql (par textV ++ c% "[" ++ par textB ++ c% "]") = .ok (.subscript exprV exprB) :=
  C72_subscript textV_read textB_read

example : expressionFromSql (c% "ROW (" ++ parList [textA, textB] ++ c% ")") = .ok (.row [exprA, exprB]) :=
  C72_row (by simp) (.cons textA_read (.cons textB_read .nil))

/-- The text of the next example. -/
example : c% "CASE" ++ optPar (c% " ") none ++ whenText [(textA, textB), (textB, textA)] ++ optPar (c% " ELSE ") (some textA) ++
    c% " END" = c% "CASE WHEN (x = NULL OR y -- not z\n) THEN (a\nAND b\n) WHEN (a\nAND b\n) THEN (x = NULL OR y -- not z\n) ELSE (x = NULL OR y -- not z\n) END" := rfl

example : expressionFromSql (c% "CASE" ++ optPar (c% " ") none ++ whenText [(textA, textB), (textB, textA)] ++
    optPar (c% " ELSE ") (some textA) ++ c% " END") = .ok (.case none [(exprA, exprB), (exprB, exprA)] (some exprA)) :=
  C72_case (ws := [(textA, textB), (textB, textA)]) (bs := [(exprA, exprB), (exprB, exprA)]) .none (.some textA_read) (by simp) (.cons ⟨textA_read, textB_read⟩ (.cons ⟨textB_read, textA_read⟩ .nil))

end Treeno.Props
