import Verif.Lemmas.Compose
import Verif.Lemmas.TypeSound
import Verif.Lemmas.CleanWf
/-!
# More texts that are put together: casts, cases, subscripts, rows
-/
set_option linter.unusedSimpArgs false
set_option linter.unusedVariables false
namespace Treeno
open Spec

variable {ts us vs Y : List Tok} {c d e : CE}

/-- A primary expression that starts with a keyword or name. -/
theorem full_primary {t : Tok} {r : List Tok} (hn : t.isKw (c% "NOT") = false) (hs : signNext (t :: r) = false)
    (h : pPrimary P t r = some (c, [])) : P (.lv 0) (t :: r) = some (c, []) := by
  have h8 : P (.lv (0 + 8)) (t :: r) = some (c, []) := by
    rw [Nat.zero_add, P_lv8, h]
    exact stop_post Stop.nil
  exact lowerTo 8 0 h8 (by omega) Stop.nil (fun _ _ => hn) (fun _ _ => hs)

theorem full_cast (b : Bool) (h1 : Opd ts c) {ty : CTy} (h2 : pType us = some (ty, [])) :
    P (.lv 0) (kwT (if b then c% "TRY_CAST" else c% "CAST") :: symT (c% "(") :: pt ts (kwT (c% "AS") :: (us ++ cl []))) =
      some (.cast b c ty us, []) := by
  refine full_primary (by cases b <;> rfl) (by cases b <;> rfl) ?_
  have hc : pCast P b (symT (c% "(") :: pt ts (kwT (c% "AS") :: (us ++ cl []))) = some (.cast b c ty us, []) := by
    rw [pCast]
    refine bind_s (a := pt ts (kwT (c% "AS") :: (us ++ cl []))) rfl ?_
    refine bind_s (operand_pt (by omega) h1 (Stop.free (by decide +kernel)) rfl) ?_
    refine bind_s (a := us ++ cl []) rfl ?_
    refine bind_s (pType_e (Y := []) us _ _ h2) ?_
    refine bind_s (a := []) rfl ?_
    have : (us ++ cl []).take ((us ++ cl []).length - ([] ++ cl []).length) = us := by simp
    rw [this]
  cases b
  · exact hc
  · exact hc

theorem type_clean {ty : CTy} (h : pType us = some (ty, [])) : clean false us = true := by
  obtain ⟨pre, h1, h2⟩ := pType_sound h
  rw [List.append_nil] at h2
  subst h2
  have := cln_gty h1 []
  rwa [List.append_nil] at this

theorem full_subscript (h1 : Opd ts c) (h2 : Opd us d) :
    P (.lv 0) (pt ts (symT (c% "[") :: pt us [symT (c% "]")])) = some (.subscript c d, []) := by
  refine lowerTo 8 0 ?_ (by omega) Stop.nil (fun _ _ => rfl) (fun _ _ => rfl)
  rw [Nat.zero_add, pt, P_lv8]
  show (pParen P (ts ++ cl _)).bind _ = _
  rw [h1.paren _ rfl]
  show P (.loop 8 c) _ = _
  rw [P_loop, pLoop, pPostfix]
  refine ite_t rfl ?_
  refine bind_s (operand_pt (by omega) h2 (Stop.free (by decide +kernel)) rfl) ?_
  refine bind_s (a := []) rfl ?_
  exact stop_post Stop.nil

theorem full_row {tss : List (List Tok)} {cs : List CE} (hne : tss ≠ []) (hs : Each Opd tss cs) :
    P (.lv 0) (kwT (c% "ROW") :: symT (c% "(") :: ptList (cl []) tss) = some (.rowKw cs, []) := by
  refine full_primary rfl rfl ?_
  show (P .exprs (ptList (cl []) tss)).bind _ = _
  rw [exprs_list (Y := cl []) (Stop.free rfl) rfl rfl hne hs]
  rfl

/-! ## CASE -/

/-- The tokens of the branches of a CASE. -/
def ptWhens (Y : List Tok) : List (List Tok × List Tok) → List Tok
  | [] => Y
  | (ts, us) :: ws => kwT (c% "WHEN") :: pt ts (kwT (c% "THEN") :: pt us (ptWhens Y ws))

/-- A keyword and an operand, or nothing. -/
def ptOpt (k : List Tok) (Y : List Tok) : Option (List Tok) → List Tok
  | none => Y
  | some ts => k ++ pt ts Y

inductive OptOpd : Option (List Tok) → Option CE → Prop
  | none : OptOpd none none
  | some {ts : List Tok} {c : CE} : Opd ts c → OptOpd (some ts) (some c)

theorem whens_list (hY : Stop 0 Y) (hl : nextSym (c% "->") Y = false) (hm : nextKw (c% "WHEN") Y = false) :
    ∀ {ws : List (List Tok × List Tok)} {cs : List (CE × CE)}, ws ≠ [] →
      Each (fun p q => Opd p.1 q.1 ∧ Opd p.2 q.2) ws cs →
      P .whens (ptWhens Y ws) = some (cs.map (fun p => .mk p.1 p.2), Y)
  | [(ts, us)], _, _, .cons h .nil => by
    rw [P_whens, pWhens]
    refine bind_s (a := (_, Y)) ?_ (ite_f hm rfl)
    rw [pWhen]
    refine bind_s (a := pt ts (kwT (c% "THEN") :: pt us Y)) rfl ?_
    refine bind_s (operand_pt (by omega) h.1 (Stop.free (by decide +kernel)) rfl) ?_
    refine bind_s (a := pt us Y) rfl ?_
    exact bind_s (operand_pt (by omega) h.2 hY hl) rfl
  | (ts, us) :: (ts', us') :: ws, _, _, .cons h hs => by
    rw [P_whens, pWhens]
    have ih := whens_list hY hl hm (by simp) hs
    generalize hZ : ptWhens Y ((ts', us') :: ws) = Z at ih
    have hw : nextKw (c% "WHEN") Z = true := by subst hZ; rfl
    have hst : Stop 0 Z := by subst hZ; exact Stop.free (by decide +kernel)
    have hsl : nextSym (c% "->") Z = false := by subst hZ; rfl
    show (pWhen P (kwT (c% "WHEN") :: pt ts (kwT (c% "THEN") :: pt us (ptWhens Y ((ts', us') :: ws)))) >>= _) = _
    rw [hZ]
    refine bind_s (a := (_, Z)) ?_ (ite_t hw (bind_s ih rfl))
    rw [pWhen]
    refine bind_s (a := pt ts (kwT (c% "THEN") :: pt us Z)) rfl ?_
    refine bind_s (operand_pt (by omega) h.1 (Stop.free (by decide +kernel)) rfl) ?_
    refine bind_s (a := pt us Z) rfl ?_
    exact bind_s (operand_pt (by omega) h.2 hst hsl) rfl

theorem full_case {v : Option (List Tok)} {cv : Option CE} (hv : OptOpd v cv) {ws : List (List Tok × List Tok)}
    {cs : List (CE × CE)} (hne : ws ≠ []) (hw : Each (fun p q => Opd p.1 q.1 ∧ Opd p.2 q.2) ws cs)
    {u : Option (List Tok)} {cu : Option CE} (hu : OptOpd u cu) :
    P (.lv 0) (kwT (c% "CASE") :: ptOpt [] (ptWhens (ptOpt [kwT (c% "ELSE")] [kwT (c% "END")] u) ws) v) =
      some (.case cv (cs.map (fun p => .mk p.1 p.2)) cu, []) := by
  refine full_primary rfl rfl ?_
  generalize hZ : ptOpt [kwT (c% "ELSE")] [kwT (c% "END")] u = Z
  have hst : Stop 0 Z := by subst hZ; cases hu <;> exact Stop.free (by decide +kernel)
  have hsl : nextSym (c% "->") Z = false := by subst hZ; cases hu <;> rfl
  have hwn : nextKw (c% "WHEN") Z = false := by subst hZ; cases hu <;> rfl
  have hwl := whens_list hst hsl hwn hne hw
  generalize hW : ptWhens Z ws = W at hwl
  have hww : nextKw (c% "WHEN") W = true ∧ Stop 0 W ∧ nextSym (c% "->") W = false := by
    subst hW
    match ws, hne with
    | (a, b) :: ws, _ => exact ⟨rfl, Stop.free (by decide +kernel), rfl⟩
  show pCase P (ptOpt [] W v) = _
  rw [pCase]
  refine bind_s (a := (cv, W)) ?_ ?_
  · rw [caseOperand]
    cases hv with
    | none => exact ite_t hww.1 rfl
    | some h => exact ite_f rfl (bind_s (operand_pt (by omega) h hww.2.1 hww.2.2) rfl)
  · refine bind_s hwl ?_
    refine bind_s (a := (cu, [kwT (c% "END")])) ?_ (bind_s (a := []) rfl rfl)
    subst hZ
    cases hu with
    | none => rfl
    | some h =>
      show (P (.lv 0) (pt _ [kwT (c% "END")]) >>= _) = _
      exact bind_s (operand_pt (by omega) h (Stop.free (by decide +kernel)) rfl) rfl

end Treeno
