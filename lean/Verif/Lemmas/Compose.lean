import Verif.Spec.Compose
import Verif.Lemmas.Context
import Verif.Lemmas.LexClean
import Verif.Lemmas.ConvMean
import Verif.Lemmas.ConvParts
/-!
# Reading texts that are put together
-/
set_option linter.unusedSimpArgs false
set_option linter.unusedVariables false
namespace Treeno
open Spec

/-! ## Tokens -/

/-- `ts` is an expression, and not a subquery in parentheses. -/
def Is (ts : List Tok) (c : CE) : Prop := P (.lv 0) ts = some (c, []) ∧ c.isSub = false

/-- The tokens in parentheses. -/
def pt (ts Y : List Tok) : List Tok := symT (c% "(") :: (ts ++ cl Y)

variable {ts us vs Y : List Tok} {c d e : CE}

/-- `ts` in parentheses is the operand `c`. -/
structure Opd (ts : List Tok) (c : CE) : Prop where
  paren : ∀ Y, nextSym (c% "->") Y = false → pParen P (ts ++ cl Y) = some (c, Y)
  bal : Bal ts

theorem Is.opd (h : Is ts c) : Opd ts (.paren c) := by
  refine ⟨fun Y hY => paren_expr h.1 h.2 hY, ?_⟩
  obtain ⟨used, h1, hb, _⟩ := lv_bal P_sound h.1
  rw [List.append_nil] at h1
  exact h1 ▸ hb

theorem query_opd {q : CQ} (h : P .query ts = some (q, [])) : Opd ts (.sub q) := by
  refine ⟨fun Y _ => paren_query h, ?_⟩
  obtain ⟨a, used, b, e⟩ := query_s P_sound h
  rw [List.append_nil] at b
  exact b ▸ Bal.canon e (CQ.wbal _ a)

/-- Tokens after which an operand of level `p` ends. -/
theorem operand_pt {p : Nat} (hp : p ≤ 8) (h : Opd ts c) (hY : Stop p Y) (hl : nextSym (c% "->") Y = false) :
    P (.lv p) (pt ts Y) = some (c, Y) := by
  have h8 : P (.lv (p + (8 - p))) (pt ts Y) = some (c, Y) := by
    rw [show p + (8 - p) = 8 by omega, pt, P_lv8]
    show (pParen P (ts ++ cl Y)).bind _ = _
    rw [h.paren Y hl]
    exact stop_post (hY.mono hp)
  exact lowerTo (8 - p) p h8 (by omega) hY (fun _ _ => rfl) (fun _ _ => rfl)

theorem Stop.nil {p : Nat} : Stop p [] := trivial

theorem full_bin {p : Nat} {t : Tok} {f : CE → CE → CE} (hp : isBin p) (ho : binOp p t = some f) (ht : t.isSym (c% "->") = false)
    (h1 : Opd ts c) (h2 : Opd us d) : P (.lv 0) (pt ts (t :: pt us [])) = some (f c d, []) := by
  have hf := binOp_frank hp ho
  have hp8 : p < 8 := by unfold isBin at hp; omega
  have ha : P (.lv (p + 1)) (pt ts (t :: pt us [])) = some (c, t :: pt us []) :=
    operand_pt (by omega) h1 (Stop.lt hf (by omega)) ht
  have hb : P (.lv (p + 1)) (pt us []) = some (d, []) := operand_pt (by omega) h2 Stop.nil rfl
  have hl : P (.lv (0 + p)) (pt ts (t :: pt us [])) = some (f c d, []) := by
    rw [Nat.zero_add, lv_operand p (.inr hp), pOperand]
    refine bind_s ha ?_
    rw [loop_bin p hp, pBinLoop, ho]
    refine bind_s hb ?_
    exact stop_bin hp Stop.nil
  exact lowerTo p 0 hl (by omega) Stop.nil (fun _ _ => rfl) (fun _ _ => rfl)

/-- A predicate after an operand. -/
theorem full_pred {t : Tok} {r : List Tok} (hf : t.frank = some 3) (ht : t.isSym (c% "->") = false) (h1 : Opd ts c)
    (hp : pPredicate P c (t :: r) = some (e, [])) : P (.lv 0) (pt ts (t :: r)) = some (e, []) := by
  have ha : P (.lv 4) (pt ts (t :: r)) = some (c, t :: r) := operand_pt (by omega) h1 (Stop.lt hf (by omega)) ht
  have hl : P (.lv (0 + 3)) (pt ts (t :: r)) = some (e, []) := by
    rw [lv_operand 3 (.inl rfl), pOperand]
    refine bind_s ha ?_
    rw [P_loop]
    exact hp
  exact lowerTo 3 0 hl (by omega) Stop.nil (fun _ _ => rfl) (fun _ _ => rfl)

theorem full_cmp {t : Tok} (hc : t.isCmp = true) (h1 : Opd ts c) (h2 : Opd us d) :
    P (.lv 0) (pt ts (t :: pt us [])) = some (.cmp t c d, []) := by
  have hs := isSymOf_eq hc
  refine full_pred (frank_symOf hc (by decide +kernel)) ?_ h1 ?_
  · obtain ⟨s, hs, rfl⟩ := hs
    simp only [List.mem_cons, List.not_mem_nil, or_false] at hs
    rcases hs with rfl | rfl | rfl | rfl | rfl | rfl | rfl <;> rfl
  · rw [pPredicate]
    refine ite_t hc ?_
    rw [pCompared]
    refine ite_f (by cases us <;> rfl) ?_
    exact bind_s (operand_pt (by omega) h2 Stop.nil rfl) rfl

theorem full_not (h1 : Opd ts c) : P (.lv 0) (kwT (c% "NOT") :: pt ts []) = some (.not_ c, []) := by
  have hl : P (.lv (0 + 2)) (kwT (c% "NOT") :: pt ts []) = some (.not_ c, []) := by
    show P (.lv 2) _ = _
    rw [P_lv, pLevel]
    refine ite_t rfl ?_
    exact bind_s (operand_pt (by omega) h1 Stop.nil rfl) rfl
  exact lowerTo 2 0 hl (by omega) Stop.nil (fun _ h => absurd h (by omega)) (fun _ h => absurd h (by omega))

theorem full_sign {s : Str} (hs : s = c% "+" ∨ s = c% "-") (h1 : Opd ts c) :
    P (.lv 0) (symT s :: pt ts []) = some (.sign (symT s) c, []) := by
  have hl : P (.lv (0 + 7)) (symT s :: pt ts []) = some (.sign (symT s) c, []) := by
    have ht : tokIf (Tok.isSymOf [c% "+", c% "-"]) (symT s :: pt ts []) = some (symT s, pt ts []) := by
      rcases hs with rfl | rfl <;> rfl
    show P (.lv 7) _ = _
    rw [P_lv, pLevel]
    refine ite_t (by rcases hs with rfl | rfl <;> rfl) ?_
    refine bind_s ht ?_
    exact bind_s (operand_pt (by omega) h1 Stop.nil rfl) rfl
  exact lowerTo 7 0 hl (by omega) Stop.nil (fun _ _ => by rcases hs with rfl | rfl <;> rfl) (fun _ h => absurd h (by omega))

theorem full_isNull (neg : Bool) (h1 : Opd ts c) :
    P (.lv 0) (pt ts (kwT (c% "IS") :: (flag neg [kwT (c% "NOT")] ++ [kwT (c% "NULL")]))) = some (.isNull neg c, []) := by
  refine full_pred (by decide +kernel) rfl h1 ?_
  rw [pPredicate]
  refine ite_f rfl (ite_t (by decide +kernel) ?_)
  cases neg <;> rfl

theorem full_distinct (neg : Bool) (h1 : Opd ts c) (h2 : Opd us d) :
    P (.lv 0) (pt ts (kwT (c% "IS") :: (flag neg [kwT (c% "NOT")] ++ kwT (c% "DISTINCT") :: kwT (c% "FROM") :: pt us []))) =
      some (.distinct neg c d, []) := by
  refine full_pred (by decide +kernel) rfl h1 ?_
  rw [pPredicate]
  refine ite_f rfl (ite_t (by decide +kernel) ?_)
  have ho : P (.lv 4) (pt us []) = some (d, []) := operand_pt (by omega) h2 Stop.nil rfl
  cases neg
  · exact bind_s rfl (bind_s rfl (bind_s ho rfl))
  · exact bind_s rfl (bind_s rfl (bind_s ho rfl))

/-- BETWEEN, IN or LIKE after an operand. -/
theorem full_negatable {k : Str} (hk : k ∈ [c% "BETWEEN", c% "IN", c% "LIKE"]) (neg : Bool) {r : List Tok} (h1 : Opd ts c)
    (h : pNegatable P c neg (kwT k) r = some (e, [])) :
    P (.lv 0) (pt ts (flag neg [kwT (c% "NOT")] ++ kwT k :: r)) = some (e, []) := by
  simp only [List.mem_cons, List.not_mem_nil, or_false] at hk
  have hneg : (kwT k).isNegatable = true := by rcases hk with rfl | rfl | rfl <;> decide +kernel
  cases neg with
  | false =>
    show P (.lv 0) (pt ts (kwT k :: r)) = _
    refine full_pred (by rcases hk with rfl | rfl | rfl <;> decide +kernel) rfl h1 ?_
    rw [pPredicate]
    refine ite_f rfl (ite_f (by rcases hk with rfl | rfl | rfl <;> decide +kernel) (ite_t hneg h))
  | true =>
    show P (.lv 0) (pt ts (kwT (c% "NOT") :: kwT k :: r)) = _
    refine full_pred (by decide +kernel) rfl h1 ?_
    rw [pPredicate]
    refine ite_f rfl (ite_f (by decide +kernel) (ite_f (by decide +kernel) (ite_t ?_ ?_)))
    · rw [nextIs, hneg]; decide +kernel
    · refine bind_s (show tokIf Tok.isNegatable (kwT k :: r) = some (kwT k, r) by rw [tokIf, hneg]; rfl) h

theorem full_between (neg : Bool) (h1 : Opd ts c) (h2 : Opd us d) (h3 : Opd vs e) :
    P (.lv 0) (pt ts (flag neg [kwT (c% "NOT")] ++ kwT (c% "BETWEEN") :: pt us (kwT (c% "AND") :: pt vs []))) =
      some (.between neg c d e, []) := by
  refine full_negatable (by simp) neg h1 ?_
  rw [pNegatable]
  refine ite_t (by decide +kernel) ?_
  have hu : P (.lv 4) (pt us (kwT (c% "AND") :: pt vs [])) = some (d, kwT (c% "AND") :: pt vs []) :=
    operand_pt (by omega) h2 (Stop.lt (k := 1) (by decide +kernel) (by omega)) rfl
  have hv : P (.lv 4) (pt vs []) = some (e, []) := operand_pt (by omega) h3 Stop.nil rfl
  exact bind_s hu (bind_s rfl (bind_s hv rfl))

theorem full_like (neg : Bool) (h1 : Opd ts c) (h2 : Opd us d) :
    P (.lv 0) (pt ts (flag neg [kwT (c% "NOT")] ++ kwT (c% "LIKE") :: pt us [])) = some (.like neg c d none, []) := by
  refine full_negatable (by simp) neg h1 ?_
  rw [pNegatable]
  refine ite_f (by decide +kernel) (ite_f (by decide +kernel) (ite_t (by decide +kernel) ?_))
  have hu : P (.lv 4) (pt us []) = some (d, []) := operand_pt (by omega) h2 Stop.nil rfl
  exact bind_s hu (bind_s rfl rfl)

/-! ## Lists -/

/-- Expressions in parentheses, with commas between them. -/
def ptList (Y : List Tok) : List (List Tok) → List Tok
  | [] => Y
  | [ts] => pt ts Y
  | ts :: rest => pt ts (symT (c% ",") :: ptList Y rest)

theorem exprs_list (hY : Stop 0 Y) (hl : nextSym (c% "->") Y = false) (hm : sym (c% ",") Y = none) :
    ∀ {tss : List (List Tok)} {cs : List CE}, tss ≠ [] → Each Opd tss cs →
      P .exprs (ptList Y tss) = some (cs, Y)
  | [ts], _, _, .cons h .nil => by
    rw [P_exprs, pSep]
    refine bind_s (operand_pt (by omega) h hY hl) ?_
    rw [hm]
  | ts :: us :: tss, _, _, .cons h hs => by
    rw [P_exprs, pSep]
    refine bind_s (operand_pt (by omega) h (Stop.free rfl) rfl) ?_
    exact bind_s (exprs_list hY hl hm (by simp) hs) rfl

theorem full_in (neg : Bool) (h1 : Opd ts c) {tss : List (List Tok)} {cs : List CE} (hne : tss ≠ []) (hs : Each Opd tss cs) :
    P (.lv 0) (pt ts (flag neg [kwT (c% "NOT")] ++ kwT (c% "IN") :: symT (c% "(") :: ptList (cl []) tss)) =
      some (.inList neg c cs, []) := by
  refine full_negatable (by simp) neg h1 ?_
  rw [pNegatable]
  refine ite_f (by decide +kernel) (ite_t (by decide +kernel) ?_)
  refine bind_s rfl (ite_f ?_ ?_)
  · have : ∀ {ts Y : List Tok} {c : CE}, Opd ts c → nextIs (Tok.isKwOf queryMore) Y = false → inStart (pt ts Y) = false := by
      intro ts Y c h hY
      rw [inStart]
      show (_ && (!true || afterClose _ (ts ++ symT (c% ")") :: Y))) = false
      rw [after_close h.bal, hY]
      exact Bool.and_false _
    match tss, hs with
    | [ts], .cons h _ => exact this h rfl
    | ts :: us :: tss, .cons h _ => exact this h rfl
  · exact bind_s (exprs_list (Stop.free rfl) rfl rfl hne hs) rfl

theorem full_array {tss : List (List Tok)} {cs : List CE} (hs : Each Opd tss cs) :
    P (.lv 0) (kwT (c% "ARRAY") :: symT (c% "[") :: ptList [symT (c% "]")] tss) = some (.array cs, []) := by
  have h8 : P (.lv (0 + 8)) (kwT (c% "ARRAY") :: symT (c% "[") :: ptList [symT (c% "]")] tss) = some (.array cs, []) := by
    rw [Nat.zero_add, P_lv8]
    have : pPrimary P (kwT (c% "ARRAY")) (symT (c% "[") :: ptList [symT (c% "]")] tss) = some (.array cs, []) := by
      have ha : pArgs P (c% "]") (ptList [symT (c% "]")] tss) = some (cs, []) := by
        cases hs with
        | nil => rfl
        | cons h hs =>
          rename_i a b tss' cs'
          rw [pArgs]
          have hn : sym (c% "]") (ptList [symT (c% "]")] (a :: tss')) = none := by cases tss' <;> rfl
          rw [hn]
          exact bind_s (exprs_list (Stop.free rfl) rfl rfl (by simp) (.cons h hs)) rfl
      show (pArgs P (c% "]") (ptList [symT (c% "]")] tss)).bind _ = _
      rw [ha]; rfl
    rw [this]
    exact stop_post Stop.nil
  exact lowerTo 8 0 h8 (by omega) Stop.nil (fun _ _ => rfl) (fun _ _ => rfl)

theorem full_in_query (neg : Bool) (h1 : Opd ts c) {q : CQ} (hq : P .query us = some (q, [])) (hn : nextSym (c% "(") us = false) :
    P (.lv 0) (pt ts (flag neg [kwT (c% "NOT")] ++ kwT (c% "IN") :: pt us [])) = some (.inSub neg c q, []) := by
  refine full_negatable (by simp) neg h1 ?_
  obtain ⟨k1, k2⟩ := query_close (Y := []) hq
  rw [pNegatable]
  refine ite_f (by decide +kernel) (ite_t (by decide +kernel) ?_)
  refine bind_s rfl (ite_t ?_ ?_)
  · have : nextSym (c% "(") (us ++ cl []) = false := by
      cases us with
      | nil => rfl
      | cons t us => exact hn
    rw [inStart, k1, this]; rfl
  · exact bind_s k2 rfl

/-- A call of a name. -/
theorem full_call {w : Tok} (hp : ∀ u, pPrimary P w (symT (c% "(") :: u) = pCall P [w] u)
    (hn : w.isKw (c% "NOT") = false) (hs : ∀ u, signNext (w :: symT (c% "(") :: u) = false)
    {tss : List (List Tok)} {cs : List CE} (h : Each Opd tss cs) :
    P (.lv 0) (w :: symT (c% "(") :: ptList (cl []) tss) = some (.call [w] none cs [] none none none, []) := by
  have h8 : P (.lv (0 + 8)) (w :: symT (c% "(") :: ptList (cl []) tss) = some (.call [w] none cs [] none none none, []) := by
    rw [Nat.zero_add, P_lv8, hp]
    have : pCall P [w] (ptList (cl []) tss) = some (.call [w] none cs [] none none none, []) := by
      cases h with
      | nil => rfl
      | cons h hs =>
        rename_i a b tss' cs'
        have hst : starArgs (ptList (cl []) (a :: tss')) = none := by
          cases tss' <;> cases a <;> rfl
        have hq : optTok Tok.isQuant (ptList (cl []) (a :: tss')) = (none, ptList (cl []) (a :: tss')) := by
          cases tss' <;> rfl
        have hc : callArgs P none (ptList (cl []) (a :: tss')) = some (b :: cs', cl []) := by
          rw [callArgs]
          refine ite_f (by cases tss' <;> rfl) ?_
          exact exprs_list (Stop.free rfl) rfl rfl (by simp) (.cons h hs)
        rw [pCall, hst]
        dsimp only
        rw [hq]
        exact bind_s hc rfl
    rw [this]
    exact stop_post Stop.nil
  exact lowerTo 8 0 h8 (by omega) Stop.nil (fun _ _ => hn) (fun _ _ => hs _)

theorem fn_calls (f : Fn) (u : List Tok) : pPrimary P (wordOf f.name) (symT (c% "(") :: u) = pCall P [wordOf f.name] u := by
  cases f <;> rfl
theorem agg_calls (f : Agg) (u : List Tok) : pPrimary P (wordOf f.name) (symT (c% "(") :: u) = pCall P [wordOf f.name] u := by
  cases f <;> rfl
theorem fn_toks (f : Fn) (y : Str) : toks (f.name ++ '(' :: y) = wordOf f.name :: toks ('(' :: y) := by
  cases f <;> exact (toks_cons _ _).trans rfl
theorem agg_toks (f : Agg) (y : Str) : toks (f.name ++ '(' :: y) = wordOf f.name :: toks ('(' :: y) := by
  cases f <;> exact (toks_cons _ _).trans rfl

/-! ## A query over texts -/

theorem items_list {k : Str} (hk : k ∈ [c% "FROM"]) : ∀ {tss : List (List Tok)} {cs : List CE}, tss ≠ [] → Each Opd tss cs →
      P .items (ptList (kwT k :: Y) tss) = some (cs.map (.expr · false none), kwT k :: Y)
  | [ts], _, _, .cons (b := b) h .nil => by
    simp only [List.mem_cons, List.not_mem_nil, or_false] at hk
    subst hk
    have hi : pItem P (pt ts (kwT (c% "FROM") :: Y)) = some (.expr b false none, kwT (c% "FROM") :: Y) := by
      rw [pItem, show sym (c% "*") (pt ts (kwT (c% "FROM") :: Y)) = none from rfl]
      refine bind_s (operand_pt (by omega) h (Stop.free (by decide +kernel)) rfl) ?_
      exact ite_f (by cases Y <;> rfl) rfl
    rw [P_items, pSep]
    exact bind_s hi rfl
  | ts :: us :: tss, _, _, .cons (b := b) h hs => by
    have hi : pItem P (pt ts (symT (c% ",") :: ptList (kwT k :: Y) (us :: tss))) =
        some (.expr b false none, symT (c% ",") :: ptList (kwT k :: Y) (us :: tss)) := by
      rw [pItem, show sym (c% "*") (pt ts (symT (c% ",") :: ptList (kwT k :: Y) (us :: tss))) = none from rfl]
      refine bind_s (operand_pt (by omega) h (Stop.free (by decide +kernel)) rfl) ?_
      exact ite_f (by cases tss <;> rfl) rfl
    rw [P_items, pSep]
    refine bind_s hi ?_
    exact bind_s (items_list hk (by simp) hs) rfl

theorem full_select {tss : List (List Tok)} {cs : List CE} (hne : tss ≠ []) (hs : Each Opd tss cs) {q : CQ}
    (hq : P .query us = some (q, [])) (hw : Opd vs d) :
    P .query (kwT (c% "SELECT") :: ptList (kwT (c% "FROM") :: pt us (kwT (c% "WHERE") :: pt vs [])) tss) =
      some (.mk false [] (.mk (.spec none (cs.map (.expr · false none)) [.sub q] (some d) none [] none []) [] none .none), []) := by
  generalize hf : pt us (kwT (c% "WHERE") :: pt vs []) = Z
  have hi := items_list (Y := Z) (k := c% "FROM") (by simp) hne hs
  have hr : P .rels Z = some ([.sub q], kwT (c% "WHERE") :: pt vs []) := by
    subst hf
    obtain ⟨k1, k2⟩ := query_close (Y := kwT (c% "WHERE") :: pt vs []) hq
    have h1 : pSampled P (pt us (kwT (c% "WHERE") :: pt vs [])) = some (.sub q, kwT (c% "WHERE") :: pt vs []) := by
      have h0 : pRelPrimary P (pt us (kwT (c% "WHERE") :: pt vs [])) = some (.sub q, kwT (c% "WHERE") :: pt vs []) := by
        rw [pRelPrimary]
        refine ite_t rfl (ite_t k1 ?_)
        exact bind_s k2 rfl
      rw [pSampled, pAliased]
      rw [h0]
      rfl
    have h2 : P .rel (pt us (kwT (c% "WHERE") :: pt vs [])) = some (.sub q, kwT (c% "WHERE") :: pt vs []) := by
      rw [P_rel]
      refine bind_s h1 ?_
      rw [P_relLoop]
      rfl
    rw [P_rels, pSep]
    exact bind_s h2 rfl
  have hv : P (.lv 0) (pt vs []) = some (d, []) := operand_pt (by omega) hw Stop.nil rfl
  have hq0 : optTok Tok.isQuant (ptList (kwT (c% "FROM") :: Z) tss) = (none, ptList (kwT (c% "FROM") :: Z) tss) := by
    match tss, hne with
    | [t], _ => rfl
    | t :: u :: tss, _ => rfl
  have h3 : P (.qterm 2) (kwT (c% "SELECT") :: ptList (kwT (c% "FROM") :: Z) tss) =
      some (.spec none (cs.map (.expr · false none)) [.sub q] (some d) none [] none [], []) := by
    rw [P_qterm]
    show pSelect P (ptList (kwT (c% "FROM") :: Z) tss) = _
    rw [pSelect, hq0]
    refine bind_s hi ?_
    refine bind_s (show optFrom P (kwT (c% "FROM") :: Z) = _ from hr) ?_
    refine bind_s (show optExpr P (c% "WHERE") (kwT (c% "WHERE") :: pt vs []) = _ from bind_s hv rfl) ?_
    rfl
  rw [P_query, pQuery]
  refine bind_s (x := optWith P _) rfl ?_
  refine bind_s (a := (.mk (.spec none (cs.map (.expr · false none)) [.sub q] (some d) none [] none []) [] none .none, [])) ?_ rfl
  rw [P_qnw, pQnw]
  refine bind_s (a := (.spec none (cs.map (.expr · false none)) [.sub q] (some d) none [] none [], [])) ?_ rfl
  rw [P_qterm]
  have h4 : P (.qterm 1) (kwT (c% "SELECT") :: ptList (kwT (c% "FROM") :: Z) tss) =
      some (.spec none (cs.map (.expr · false none)) [.sub q] (some d) none [] none [], []) := by
    rw [P_qterm]
    refine bind_s h3 ?_
    rw [P_qloop]; rfl
  refine bind_s h4 ?_
  rw [P_qloop]; rfl

/-! ## Texts -/

theorem clean_canon : ∀ {a b : List Tok} (f : Bool), a.map canon = b.map canon → clean f a = clean f b
  | [], [], f, _ => rfl
  | t :: a, [], f, h => by simp at h
  | [], t :: a, f, h => by simp at h
  | t :: a, u :: b, f, h => by
    simp only [List.map_cons, List.cons.injEq] at h
    obtain ⟨h1, h2⟩ := h
    have hs : ∀ s, t.isSym s = u.isSym s := fun s => by rw [← canon_isSym s t, h1, canon_isSym]
    have hk : ∀ t : Tok, (canon t).kind = t.kind := fun t => by
      unfold canon
      split
      · rename_i h; rw [h]
      · rfl
    rw [clean, clean, hs, hs, ← hk t, h1, hk, clean_canon _ h2]

theorem lv_clean {p : Nat} {ts : List Tok} {c : CE} (h : P (.lv p) ts = some (c, [])) : clean false ts = true := by
  obtain ⟨a, _, used, b, e⟩ := lv_s P_sound h
  rw [List.append_nil] at b
  subst b
  rw [clean_canon false e]
  have := CE.wcln c a []
  rw [List.append_nil] at this
  exact this

theorem query_clean {ts : List Tok} {q : CQ} (h : P .query ts = some (q, [])) : clean false ts = true := by
  obtain ⟨a, used, b, e⟩ := query_s P_sound h
  rw [List.append_nil] at b
  subst b
  rw [clean_canon false e]
  have := CQ.wcln q a []
  rw [List.append_nil] at this
  exact this

theorem toks_open (s : Str) : toks ('(' :: s) = symT (c% "(") :: toks s := by
  cases s with
  | nil => rfl
  | cons d s =>
    refine toks_step (t := symT (c% "(")) (r := d :: s) ?_
    show (if twoSyms.contains ['(', d] then _ else _ : Tok × Str) = _
    rw [if_neg]
    · rfl
    · intro h
      rw [List.contains_iff_mem] at h
      simp [twoSyms] at h

theorem toks_close (s : Str) : toks (')' :: s) = symT (c% ")") :: toks s := by
  cases s with
  | nil => rfl
  | cons d s =>
    refine toks_step (t := symT (c% ")")) (r := d :: s) ?_
    show (if twoSyms.contains [')', d] then _ else _ : Tok × Str) = _
    rw [if_neg]
    · rfl
    · intro h
      rw [List.contains_iff_mem] at h
      simp [twoSyms] at h

theorem toks_par {s : Str} (h : clean false (toks s) = true) (y : Str) : toks (par s ++ y) = pt (toks s) (toks y) := by
  have : par s ++ y = '(' :: (s ++ '\n' :: (')' :: y)) := by simp [par]
  rw [this, toks_open, toks_next _ false s (Nat.le_refl _) h, toks_close]
  rfl

theorem toks_par0 {s : Str} (h : clean false (toks s) = true) : toks (par s) = pt (toks s) [] := by
  have := toks_par h []
  rwa [List.append_nil] at this

/-- What the text in parentheses is. -/
theorem text_is {s : Str} {e : Expr} (h : Text s e) : ∃ c, Opd (toks s) c ∧ c.conv = .ok e ∧ clean false (toks s) = true := by
  cases h with
  | expr h hq =>
    unfold expressionFromSql at h
    split at h
    · rename_i c hc
      refine ⟨.paren c, Is.opd ⟨hc, ?_⟩, h, lv_clean hc⟩
      cases c <;> try rfl
      rename_i q
      exfalso
      rw [CE_conv_sub] at h
      obtain ⟨a, _, h⟩ := bind_ok h
      obtain ⟨b, _, h⟩ := bind_ok h
      cases h
      exact hq _ rfl
    · cases h
  | query hw h =>
    obtain ⟨c, hc⟩ := hw
    refine ⟨.sub c, query_opd hc, ?_, query_clean hc⟩
    unfold queryFromSql at h
    rw [hc] at h
    rw [CE_conv_sub, show c.conv = _ from h]; rfl

theorem toks_list : ∀ {ss : List Str}, (∀ s ∈ ss, clean false (toks s) = true) → ∀ y : Str,
    toks (parList ss ++ y) = ptList (toks y) (ss.map toks)
  | [], _, _ => rfl
  | [s], h, y => toks_par (h s (by simp)) y
  | s :: t :: ss, h, y => by
    have e : parList (s :: t :: ss) ++ y = par s ++ (c% ", " ++ (parList (t :: ss) ++ y)) := by
      simp [parList]
    rw [e, toks_par (h s (by simp))]
    have e2 : toks (c% ", " ++ (parList (t :: ss) ++ y)) = symT (c% ",") :: toks (parList (t :: ss) ++ y) := by
      refine (toks_step (t := symT (c% ",")) (r := ' ' :: (parList (t :: ss) ++ y)) rfl).trans ?_
      exact congrArg (symT (c% ",") :: ·) (toks_ws ' ' _ rfl)
    rw [e2, toks_list (fun u hu => h u (List.mem_cons_of_mem _ hu)) y]
    rfl

theorem each_read : ∀ {ss : List Str} {es : List Expr}, Each Text ss es →
    ∃ cs, Each Opd (ss.map toks) cs ∧ CE.convs cs = .ok es ∧ ∀ s ∈ ss, clean false (toks s) = true
  | _, _, .nil => ⟨[], .nil, rfl, by simp⟩
  | _, _, .cons h hs => by
    obtain ⟨c, h1, h2, h3⟩ := text_is h
    obtain ⟨cs, k1, k2, k3⟩ := each_read hs
    refine ⟨c :: cs, .cons h1 k1, ?_, ?_⟩
    · show (do let a ← c.conv; let as ← CE.convs cs; Except.ok (a :: as)) = _
      rw [h2, k2]; rfl
    · intro s hs
      rcases List.mem_cons.mp hs with rfl | hs
      · exact h3
      · exact k3 s hs

theorem toks_lead {c : Char} {w u : Str} {t : Tok} (h : lexOne c (w ++ ' ' :: u) = (t, ' ' :: u)) (hv : t.visible = true) :
    toks (c :: (w ++ ' ' :: u)) = t :: toks u := by
  rw [toks_step h, if_pos hv, toks_ws ' ' _ rfl]

theorem toks_mid {c : Char} {w u : Str} {t : Tok} (h : lexOne c (w ++ ' ' :: u) = (t, ' ' :: u)) (hv : t.visible = true) :
    toks (' ' :: c :: (w ++ ' ' :: u)) = t :: toks u := by
  rw [toks_ws ' ' _ rfl, toks_lead h hv]

theorem reads_as {s : Str} {c : CE} (h : P (.lv 0) (toks s) = some (c, [])) : expressionFromSql s = c.conv := by
  unfold expressionFromSql
  rw [h]

end Treeno
