import Verif.Lemmas.ExtendMore
import Verif.Lemmas.CompleteMore
import Verif.Lemmas.Krfl
/-!
# What is read in parentheses is what is read alone
-/
set_option linter.unusedSimpArgs false
set_option linter.unusedVariables false
namespace Treeno
open Spec

variable {Y : List Tok}

theorem idents_scan : ∀ {ts : List Tok} {x} (d : Nat), pIdents ts = some x → scanClose d ts = scanClose d x.2
  | [], x, d, h => by cases h
  | [t], x, d, h => by
    rw [pIdents] at h
    split at h
    · rename_i ht
      cases h
      exact scan_np (NP.ident (isIdent_Ident ht)) d []
    · cases h
  | t :: u :: ts, x, d, h => by
    rw [pIdents] at h
    split at h
    · rename_i ht
      split at h
      · rename_i hu
        cases hp : pIdents ts with
        | none => rw [hp] at h; cases h
        | some y =>
          rw [hp] at h
          simp only [Option.map_some, Option.some.injEq] at h
          subst h
          have hu := isSym_eq hu
          subst hu
          rw [scan_np (NP.ident (isIdent_Ident ht)), scan_np ⟨rfl, rfl⟩]
          exact idents_scan (x := y) d hp
      · cases h
        exact scan_np (NP.ident (isIdent_Ident ht)) d _
    · cases h

/-- Balanced tokens in parentheses are no list of the names of a lambda expression, unless `->` follows. -/
theorem lamHead_close {ts : List Tok} (hb : Bal ts) (hne : ts ≠ []) (hY : nextSym (c% "->") Y = false) :
    lamHead (ts ++ cl Y) = none := by
  have hs : scanClose 0 ts = none := by
    have := hb 0 []
    rw [List.append_nil] at this
    rw [this]; rfl
  have key : ∀ v : List Tok, scanClose 0 v = none → next2 (Tok.isSym (c% ")")) (Tok.isSym (c% "->")) (v ++ cl Y) = false := by
    intro v hv
    cases v with
    | nil =>
      cases Y with
      | nil => rfl
      | cons y Y => exact hY
    | cons a v =>
      have ha : a.isSym (c% ")") = false := by
        rw [Bool.eq_false_iff]
        intro h
        rw [isSym_eq h, scan_rpar0] at hv
        cases hv
      cases v with
      | nil => show (a.isSym _ && _) = false; rw [ha]; rfl
      | cons b v => show (a.isSym _ && _) = false; rw [ha]; rfl
  unfold lamHead
  rw [key ts hs, if_neg (by simp), pIdents_app]
  cases hp : pIdents ts with
  | none => rfl
  | some y =>
    obtain ⟨ids, v⟩ := y
    simp only [Option.map_some]
    rw [key v (by rw [← idents_scan 0 hp]; exact hs), if_neg (by simp)]

/-! ## A query in parentheses starts as one -/

theorem canon_isKwOf (ks : List Str) (t : Tok) : (canon t).isKwOf ks = t.isKwOf ks := by
  unfold canon
  split
  · rename_i h; simp only [Tok.isKwOf, h, upper_upper]
  · rfl

theorem scanClose_canon : ∀ (d : Nat) (ts : List Tok), scanClose d (ts.map canon) = (scanClose d ts).map (List.map canon)
  | _, [] => rfl
  | d, t :: ts => by
    simp only [List.map_cons, scanClose, canon_isSym]
    split
    · exact scanClose_canon (d + 1) ts
    · split
      · cases d with
        | zero => rfl
        | succ d => exact scanClose_canon d ts
      · exact scanClose_canon d ts

theorem closeNext_canon (ts : List Tok) : closeNext (ts.map canon) = closeNext ts := by
  cases ts with
  | nil => rfl
  | cons t ts => simp only [List.map_cons, closeNext, nextIs, canon_isSym, canon_isKwOf]

theorem qnwStart_canon : ∀ ts : List Tok, qnwStart (ts.map canon) = qnwStart ts
  | [] => rfl
  | t :: ts => by
    simp only [List.map_cons, qnwStart, canon_isSym, canon_isKwOf, qnwStart_canon ts]
    have : afterClose closeNext (ts.map canon) = afterClose closeNext ts := by
      unfold afterClose
      rw [scanClose_canon]
      cases scanClose 0 ts with
      | none => rfl
      | some r => exact closeNext_canon r
    rw [show (nextIs fun u => u.isSym (c% ")") || u.isKwOf queryMore) = closeNext from rfl, this]

theorem setOp_wmore {op : Tok} {ts : List Tok} (h : Kof [c% "UNION", c% "EXCEPT", c% "INTERSECT"] op) :
    nextIs (Tok.isKwOf queryMore) (op :: ts) = true := by
  obtain ⟨h1, h2⟩ := h
  simp only [List.mem_cons, List.not_mem_nil, or_false] at h2
  rw [nextIs, Tok.isKwOf, h1]
  rcases h2 with h | h | h <;> rw [h] <;> decide +kernel

mutual
theorem CQT.wbegins : ∀ t : CQT, t.Wf → ∀ rest, closeNext rest = true → qnwStart (t.yield ++ rest) = true
  | .set op q l r, h, rest, _ => by
    rw [CQT_Wf_set] at h; rw [CQT_yield_set, List.append_assoc]
    exact CQT.wbegins l h.2.2.1 _ (more_close (setOp_wmore h.1))
  | .spec a b c d e f g i, _, rest, _ => by rw [CQT_yield_spec]; rfl
  | .table n, _, rest, _ => by rw [CQT_yield_table]; rfl
  | .values es, _, rest, _ => by rw [CQT_yield_values]; rfl
  | .sub q, h, rest, hr => by
    rw [CQT_Wf_sub] at h; rw [CQT_yield_sub, inParens, List.cons_append, List.append_assoc, List.cons_append, List.nil_append]
    rw [qnwStart, if_pos (show Tok.isSym (c% "(") (symT (c% "(")) = true from rfl), after_close (CQN.wbal q h),
      CQN.wbegins q h _ rfl]
    exact hr
theorem CQN.wbegins : ∀ q : CQN, q.Wf → ∀ rest, closeNext rest = true → qnwStart (q.yield ++ rest) = true
  | .mk t ob off lim, h, rest, hr => by
    rw [CQN_Wf_mk] at h; rw [CQN_yield_mk, List.append_assoc]
    exact CQT.wbegins t h.1 _ (tail_close hr)
end

theorem q_wstart {q : CQ} (hp : q.Wf) (rest : List Tok) : qStart (q.yield ++ symT (c% ")") :: rest) = true := by
  cases q with
  | mk rc w b =>
    rw [CQ_Wf_mk] at hp
    rw [CQ_yield_mk, List.append_assoc]
    match w, hp with
    | [], hp =>
      rw [CNamed_yields_nil]
      show qStart (b.yield ++ symT (c% ")") :: rest) = true
      rw [qStart, CQN.wbegins b hp.2.2 _ rfl, Bool.or_true]
    | .mk n c q :: ns, _ => rw [CNamed_yields_cons]; rfl

theorem qStart_canon (ts : List Tok) : qStart (ts.map canon) = qStart ts := by
  have h : ∀ ts : List Tok, nextKw (c% "WITH") (ts.map canon) = nextKw (c% "WITH") ts := by
    intro ts
    cases ts with
    | nil => rfl
    | cons t ts =>
      show (canon t).isKw _ = t.isKw _
      unfold canon
      split
      · rename_i h; simp only [Tok.isKw, h, upper_upper]
      · rfl
  rw [qStart, qStart, h, qnwStart_canon]

/-- A query that reaches the closing parenthesis. -/
theorem query_close {ts : List Tok} {q : CQ} (h : P .query ts = some (q, [])) :
    qStart (ts ++ cl Y) = true ∧ pSub P (ts ++ cl Y) = some (q, Y) := by
  constructor
  · obtain ⟨a, used, h1, h2⟩ := query_s P_sound h
    rw [List.append_nil] at h1
    subst h1
    rw [← qStart_canon, List.map_append, h2, ← List.map_append, qStart_canon]
    exact q_wstart a Y
  · rw [pSub, (P_ext Y _ _ _ h).2]
    rfl

theorem paren_query {ts : List Tok} {q : CQ} (h : P .query ts = some (q, [])) :
    pParen P (ts ++ cl Y) = some (.sub q, Y) := by
  obtain ⟨h1, h2⟩ := query_close (Y := Y) h
  rw [pParen, qStart_lam h1]
  exact ite_t h1 (bind_s h2 rfl)

/-! ## An expression in parentheses -/

theorem lv_none {ts : List Tok} (hn : nextKw (c% "NOT") ts = false) (hs : signNext ts = false) : ∀ d p, p + d = 8 →
    P (.lv 8) ts = none → P (.lv p) ts = none
  | 0, p, e, h => by
    have : p = 8 := by omega
    subst this; exact h
  | d + 1, p, e, h => by
    have ih := lv_none hn hs d (p + 1) (by omega) h
    have hcase : (p = 3 ∨ isBin p) ∨ p = 2 ∨ p = 7 := by unfold isBin; omega
    rcases hcase with hb | rfl | rfl
    · rw [lv_operand p hb, pOperand, ih]; rfl
    · rw [P_lv, pLevel, hn]; exact ih
    · rw [P_lv, pLevel, hs]
      show pOperand P 7 ts = none
      rw [pOperand, ih]; rfl

theorem primary_kw {t : Tok} {ts : List Tok} (h : t.isKwOf [c% "WITH", c% "SELECT", c% "VALUES", c% "TABLE"] = true) :
    P (.lv 0) (t :: ts) = none := by
  obtain ⟨h1, h2⟩ := isKwOf_eq h
  have key : ∀ w ∈ [c% "WITH", c% "SELECT", c% "VALUES", c% "TABLE"], upper t.text = w → P (.lv 0) (t :: ts) = none := by
    intro w hw e
    have hsym : ∀ s, t.isSym s = false := fun s => by simp [Tok.isSym, h1]
    have hkw : ∀ k, t.isKw k = (w == k) := fun k => by simp [Tok.isKw, h1, e]
    have hof : ∀ ks, t.isKwOf ks = ks.contains w := fun ks => by simp [Tok.isKwOf, h1, e]
    have hid : t.isIdent = nonReserved.contains w := by simp [Tok.isIdent, h1, e]
    have hnum : t.isNum = false := by simp [Tok.isNum, h1]
    have hp : pPrimary P t ts = none := by
      rw [pPrimary, hid, hnum]
      simp only [hsym, hkw, hof, h1]
      simp only [List.mem_cons, List.not_mem_nil, or_false] at hw
      rcases hw with rfl | rfl | rfl | rfl <;> krfl
    refine lv_none ?_ ?_ 8 0 rfl (by rw [P_lv8, hp]; rfl)
    · show t.isKw _ = false
      rw [hkw]
      simp only [List.mem_cons, List.not_mem_nil, or_false] at hw
      rcases hw with rfl | rfl | rfl | rfl <;> rfl
    · rw [signNext, hsym, hsym]; rfl
  exact key _ h2 rfl

/-- An expression that is no subquery does not start as a query. -/
theorem start_expr {ts : List Tok} {c : CE} (h : P (.lv 0) ts = some (c, [])) (hc : c.isSub = false) :
    qStart (ts ++ cl Y) = false := by
  obtain ⟨used, h1, hb, hne⟩ := lv_bal P_sound h
  rw [List.append_nil] at h1
  subst h1
  rw [Bool.eq_false_iff]
  intro hq
  cases ts with
  | nil => exact hne rfl
  | cons t u =>
    by_cases ht : t.isSym (c% "(") = true
    · have ht := isSym_eq ht
      subst ht
      obtain ⟨r1, hr⟩ := hb.closed
      have hw : qnwStart (symT (c% "(") :: (u ++ cl Y)) = true := hq
      rw [qnwStart, if_pos (show Tok.isSym (c% "(") (symT (c% "(")) = true from rfl), Bool.and_eq_true] at hw
      obtain ⟨hw1, hw2⟩ := hw
      rw [qnwStart_app hr] at hw1
      rw [afterClose, scan_app _ hr] at hw2
      have hqs : qStart u = true := by rw [qStart, hw1, Bool.or_true]
      have hp : pParen P u = (pSub P u).bind fun q => some (.sub q.1, q.2) := by
        rw [pParen, qStart_lam hqs]
        exact ite_t hqs rfl
      cases hs : pSub P u with
      | none =>
        have : P (.lv 8) (symT (c% "(") :: u) = none := by
          rw [P_lv8]
          show (pParen P u).bind _ = none
          rw [hp, hs]; rfl
        rw [lv_none rfl rfl 8 0 rfl this] at h
        cases h
      | some x =>
        obtain ⟨q, v⟩ := x
        have hv := sub_scan P_sound hs
        rw [hr] at hv
        simp only [Option.some.injEq] at hv
        subst hv
        have hstop : Stop 0 r1 := by
          cases r1 with
          | nil => trivial
          | cons a w =>
            have hw2 : (a.isSym (c% ")") || a.isKwOf queryMore) = true := hw2
            rw [Bool.or_eq_true] at hw2
            rcases hw2 with ha | ha
            · rw [isSym_eq ha]; exact Stop.free rfl
            · exact Stop.free (frank_kwOf ha (by decide +kernel))
        have h8 : P (.lv (0 + 8)) (symT (c% "(") :: u) = some (.sub q, r1) := by
          rw [P_lv8]
          show (pParen P u).bind _ = _
          rw [hp, hs]
          exact stop_post (hstop.mono (by omega))
        have := lowerTo 8 0 h8 (by omega) hstop (fun _ _ => rfl) (fun _ _ => rfl)
        rw [h] at this
        simp only [Option.some.injEq, Prod.mk.injEq] at this
        rw [this.1] at hc
        cases hc
    · have ht := Bool.eq_false_iff.2 ht
      have : t.isKwOf [c% "WITH", c% "SELECT", c% "VALUES", c% "TABLE"] = true := by
        rw [qStart, Bool.or_eq_true] at hq
        rcases hq with hq | hq
        · have hq : t.isKw (c% "WITH") = true := hq
          obtain ⟨h1, h2⟩ := isKw_eq hq
          simp [Tok.isKwOf, h1, h2]
        · rw [List.cons_append, qnwStart, if_neg (by rw [ht]; simp)] at hq
          obtain ⟨h1, h2⟩ := isKwOf_eq hq
          simp only [Tok.isKwOf, h1, Bool.and_eq_true, List.contains_iff_mem]
          exact ⟨rfl, List.mem_cons_of_mem _ h2⟩
      rw [primary_kw this] at h
      cases h

theorem paren_expr {ts : List Tok} {c : CE} (h : P (.lv 0) ts = some (c, [])) (hc : c.isSub = false)
    (hY : nextSym (c% "->") Y = false) : pParen P (ts ++ cl Y) = some (.paren c, Y) := by
  obtain ⟨used, h1, hb, hne⟩ := lv_bal P_sound h
  rw [List.append_nil] at h1
  subst h1
  rw [pParen, lamHead_close hb hne hY]
  refine ite_f (start_expr h hc) ?_
  have he : P .exprs (ts ++ cl Y) = some ([c], cl Y) := by
    rw [P_exprs, pSep]
    refine bind_s (P_ext Y _ _ _ h).2 ?_
    rfl
  exact bind_s he rfl

end Treeno
