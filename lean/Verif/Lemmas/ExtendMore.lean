import Verif.Lemmas.Extend
/-!
# A closing parenthesis after what the parser reads changes nothing: the parts of the parser
-/
set_option linter.unusedSimpArgs false
set_option linter.unusedVariables false
namespace Treeno
open Spec

/-- What `r` reads, the parser reads, also with `cl Y` after the tokens. -/
def RExt (Y : List Tok) (r : Rec) : Prop := ∀ nt ts x, r nt ts = some x →
  P nt ts = some x ∧ P nt (ts ++ cl Y) = some (x.1, x.2 ++ cl Y)

variable {Y : List Tok} {r : Rec}

theorem RExt.e (hr : RExt Y r) {nt : NT} {ts : List Tok} : E Y (r nt ts) (P nt (ts ++ cl Y)) :=
  fun _ _ h => (hr _ _ _ h).2

theorem RExt.sound (hr : RExt Y r) : PSound r := fun nt ts x h => P_sound nt ts x (hr _ _ _ h).1

/-! ## Balance -/

theorem lv_bal (hr : PSound r) {p ts x} (h : r (.lv p) ts = some x) : ∃ used, ts = used ++ x.2 ∧ Bal used ∧ used ≠ [] := by
  obtain ⟨a, _, used, b, c⟩ := lv_s hr h
  refine ⟨used, b, Bal.canon c (CE.wbal _ a), fun hn => ?_⟩
  rw [hn] at c
  exact CE.yield_ne_nil x.1 (by simpa using c.symm)

theorem exprs_scan (hr : PSound r) {ts x u} (h : r .exprs ts = some x) (hs : sym (c% ")") x.2 = some u) :
    scanClose 0 ts = some u := by
  obtain ⟨_, a, b⟩ := exprs_s hr h
  exact b.scan (Bal.commas (CE.wbals _ a)) hs

theorem rel_scan (hr : PSound r) {ts x u} (h : r .rel ts = some x) (hs : sym (c% ")") x.2 = some u) :
    scanClose 0 ts = some u := by
  obtain ⟨a, b⟩ := rel_s hr h
  exact b.scan (CR.wbal _ a) hs

theorem sub_scan (hr : PSound r) {ts x} (h : pSub r ts = some x) : scanClose 0 ts = some x.2 := by
  unfold pSub at h
  inv h
  obtain ⟨p, h1, u, h2, rfl⟩ := h
  obtain ⟨a, b⟩ := query_s hr h1
  exact b.scan (CQ.wbal _ a) h2

/-! ## Looking ahead -/

theorem afterClose_app {f : List Tok → Bool} {ts r1 : List Tok} (h : scanClose 0 ts = some r1)
    (hf : f (r1 ++ cl Y) = f r1) : afterClose f (ts ++ cl Y) = afterClose f ts := by
  unfold afterClose
  rw [scan_app _ h, h]
  exact hf

theorem qnwStart_app : ∀ {ts : List Tok} {d : Nat} {r1 : List Tok}, scanClose d ts = some r1 →
    qnwStart (ts ++ cl Y) = qnwStart ts
  | [], d, r1, h => by simp [scanClose] at h
  | t :: ts, d, r1, h => by
    rw [List.cons_append, qnwStart, qnwStart]
    rw [scan_cons] at h
    split
    · rename_i h1
      rw [if_pos h1] at h
      rw [qnwStart_app h]
      obtain ⟨r2, h2, h3⟩ := scan_succ (k := 0) (d := d) (by rw [Nat.zero_add]; exact h)
      have hne : r2 ≠ [] := by
        intro e
        rw [e] at h3
        simp [scanClose] at h3
      rw [afterClose_app h2 (nextIs_cons hne)]
    · rfl

theorem qStart_app {ts : List Tok} {d : Nat} {r1 : List Tok} (h : scanClose d ts = some r1) :
    qStart (ts ++ cl Y) = qStart ts := by
  rw [qStart, qStart, nextKw_app, qnwStart_app h]

theorem inStart_app {ts : List Tok} {d : Nat} {r1 : List Tok} (h : scanClose d ts = some r1) :
    inStart (ts ++ cl Y) = inStart ts := by
  rw [inStart, inStart, qStart_app h, nextSym_app (by decide)]
  cases hn : nextSym (c% "(") ts with
  | false => simp
  | true =>
    rw [drop1_sym hn]
    match ts, hn with
    | t :: ts, hn =>
      rw [nextSym] at hn
      rw [scan_cons, if_pos hn] at h
      obtain ⟨r2, h2, h3⟩ := scan_succ (k := 0) (d := d) (by rw [Nat.zero_add]; exact h)
      rw [show (t :: ts).drop 1 = ts from rfl, afterClose_app h2 (nextIs_app rfl _)]

theorem idents_rest : ∀ {ts : List Tok} {x}, pIdents ts = some x → symT (c% ")") ∈ ts → x.2 ≠ []
  | [], x, h, hm => by cases h
  | [t], x, h, hm => by
    simp only [List.mem_singleton] at hm
    subst hm
    cases h
  | t :: u :: ts, x, h, hm => by
    rw [pIdents] at h
    split at h
    · rename_i ht
      split at h
      · rename_i hu
        cases hp : pIdents ts with
        | none => rw [hp] at h; cases h
        | some y =>
          rw [hp] at h
          simp only [Option.map_some, Option.some.injEq] at h
          subst h
          refine idents_rest (x := y) hp ?_
          simp only [List.mem_cons] at hm
          rcases hm with hm | hm | hm
          · subst hm; cases ht
          · subst hm; cases hu
          · exact hm
      · cases h; simp
    · cases h

theorem lamHead_no {ts : List Tok} (h : lamHead ts = none) (hm : symT (c% ")") ∈ ts) : lamHead (ts ++ cl Y) = none := by
  unfold lamHead at h ⊢
  have h1 : next2 (Tok.isSym (c% ")")) (Tok.isSym (c% "->")) (ts ++ cl Y) = next2 (Tok.isSym (c% ")")) (Tok.isSym (c% "->")) ts := by
    match ts, hm with
    | [t], _ => show (_ && false) = false; simp
    | t :: u :: ts, _ => rfl
  rw [h1, pIdents_app]
  split at h
  · cases h
  · rename_i hc
    rw [if_neg hc]
    cases hp : pIdents ts with
    | none => rfl
    | some y =>
      obtain ⟨ids, v⟩ := y
      rw [hp] at h
      simp only [Option.map_some] at h ⊢
      have h2 : next2 (Tok.isSym (c% ")")) (Tok.isSym (c% "->")) (v ++ cl Y) = next2 (Tok.isSym (c% ")")) (Tok.isSym (c% "->")) v := by
        have hv := idents_rest hp hm
        match v, hv with
        | [t], _ => show (_ && false) = false; simp
        | t :: u :: ts, _ => rfl
      rw [h2]
      split at h
      · cases h
      · rename_i hn; rw [if_neg hn]

theorem lamHead_some {ts ids u : List Tok} (h : lamHead ts = some (ids, u)) : lamHead (ts ++ cl Y) = some (ids, u ++ cl Y) := by
  unfold lamHead at h ⊢
  split at h
  · rename_i hc
    cases h
    match ts, hc with
    | t :: v :: ts, hc =>
      rw [if_pos (show next2 _ _ (t :: v :: ts ++ cl Y) = true from hc)]
      rfl
  · rename_i hc
    rw [pIdents_app]
    cases hp : pIdents ts with
    | none => rw [hp] at h; cases h
    | some y =>
      obtain ⟨is, v⟩ := y
      rw [hp] at h
      simp only [Option.map_some] at h ⊢
      split at h
      · rename_i hn
        cases h
        have h1 : next2 (Tok.isSym (c% ")")) (Tok.isSym (c% "->")) (ts ++ cl Y) = false := by
          match ts, hp with
          | [t], _ => show (_ && false) = false; simp
          | t :: w :: ts, _ => exact Bool.eq_false_iff.2 hc
        rw [h1]
        match v, hn with
        | a :: b :: v, hn =>
          rw [if_neg (by simp), if_pos (show next2 _ _ (a :: b :: v ++ cl Y) = true from hn)]
          rfl
      · cases h

theorem starArgs_some {ts u : List Tok} {l : Option Tok} (h : starArgs ts = some (l, u)) :
    starArgs (ts ++ cl Y) = some (l, u ++ cl Y) := by
  match ts, h with
  | s :: c :: ts, h =>
    rw [starArgs] at h
    show starArgs (s :: c :: (ts ++ cl Y)) = _
    rw [starArgs]
    split at h
    · rename_i hc; rw [if_pos hc]; cases h; rfl
    · rename_i hc
      rw [if_neg hc]
      split at h
      · rename_i hd
        cases h
        match ts, hd with
        | [], hd => simp [next2] at hd
        | [a], hd => simp [next2] at hd
        | a :: b :: ts, hd => rw [if_pos (by simpa [next2] using hd)]; rfl
      · cases h

theorem starArgs_no {ts : List Tok} (h : starArgs ts = none) (hm : symT (c% ")") ∈ ts) : starArgs (ts ++ cl Y) = none := by
  match ts, h, hm with
  | [s], h, hm =>
    simp only [List.mem_singleton] at hm
    subst hm
    rfl
  | s :: c :: ts, h, hm =>
    rw [starArgs] at h
    show starArgs (s :: c :: (ts ++ cl Y)) = _
    rw [starArgs]
    split at h
    · cases h
    · rename_i hc
      rw [if_neg hc]
      split at h
      · cases h
      · rename_i hd
        rw [if_neg]
        intro hd'
        match ts, hd, hd' with
        | [], hd, hd' => 
          simp only [Bool.and_eq_true] at hd'
          have := hd'.2
          cases Y <;> cases this
        | [a], hd, hd' =>
          simp only [Bool.and_eq_true] at hd'
          obtain ⟨⟨h1, h2⟩, h3⟩ := hd'
          have h3 : a.isSym (c% "*") = true := by
            simp only [List.cons_append, List.nil_append, cl, next2, Bool.and_eq_true] at h3
            exact h3.1
          simp only [List.mem_cons, List.not_mem_nil, or_false] at hm
          rcases hm with hm | hm | hm <;> subst hm
          · cases h1
          · cases h2
          · cases h3
        | a :: b :: ts, hd, hd' => exact hd (by simpa [next2] using hd')

theorem sym_mem {s : Str} {ts u : List Tok} (h : sym s ts = some u) : symT s ∈ ts := by
  cases ts with
  | nil => cases h
  | cons t ts =>
    rw [sym] at h
    split at h
    · rename_i ht; rw [isSym_eq ht]; simp
    · cases h

/-! ## The parts -/

theorem pSep_e {α : Type} {item item' : List Tok → Option (α × List Tok)} {more more' : List Tok → Option (List α × List Tok)}
    (hi : ∀ ts, E Y (item ts) (item' (ts ++ cl Y))) (hm : ∀ ts, E Y (more ts) (more' (ts ++ cl Y))) (ts : List Tok) :
    E Y (pSep item more ts) (pSep item' more' (ts ++ cl Y)) := by
  unfold pSep
  refine (hi _).bind fun o u _ => ?_
  dsimp only
  rw [sym_app (by decide)]
  cases sym (c% ",") u with
  | none => exact E.ret
  | some v => exact (hm _).bind fun _ _ _ => E.ret

theorem pArgs_e (hr : RExt Y r) (close : Str) (ts : List Tok) : E Y (pArgs r close ts) (pArgs P close (ts ++ cl Y)) := by
  cases ts with
  | nil =>
    intro o rest h
    exfalso
    unfold pArgs at h
    simp only [sym] at h
    inv h
    obtain ⟨p, h1, u, h2, _⟩ := h
    obtain ⟨_, _, b⟩ := exprs_s hr.sound h1
    have := b.suffix
    simp only [List.suffix_nil] at this
    rw [this] at h2
    cases h2
  | cons t ts =>
    unfold pArgs
    rw [sym_cons _ (by simp)]
    cases sym close (t :: ts) with
    | some u => exact E.ret
    | none => exact hr.e.bind fun _ _ _ => (sym_e _ _).bind fun _ _ => E.ret

theorem pSub_e (hr : RExt Y r) (ts : List Tok) : E Y (pSub r ts) (pSub P (ts ++ cl Y)) := by
  unfold pSub
  exact hr.e.bind fun _ _ _ => (sym_e _ _).bind fun _ _ => E.ret

theorem optExpr_e (hr : RExt Y r) (k : Str) (ts : List Tok) : E Y (optExpr r k ts) (optExpr P k (ts ++ cl Y)) := by
  unfold optExpr
  rw [kw_app]
  cases kw k ts with
  | none => exact E.ret
  | some u => exact hr.e.bind fun _ _ _ => E.ret

theorem optOrder_e (hr : RExt Y r) (ts : List Tok) : E Y (optOrder r ts) (optOrder P (ts ++ cl Y)) := by
  unfold optOrder
  rw [kw_app]
  cases kw (c% "ORDER") ts with
  | none => exact E.ret
  | some u => exact (kw_e _ _).bind fun _ _ => hr.e

theorem optFilter_e (hr : RExt Y r) (ts : List Tok) : E Y (optFilter r ts) (optFilter P (ts ++ cl Y)) := by
  unfold optFilter
  refine E.ite (next2_app rfl rfl _) (fun h => ?_) fun _ => E.ret
  rw [drop2_next2 h]
  exact (kw_e _ _).bind fun _ _ => hr.e.bind fun _ _ _ => (sym_e _ _).bind fun _ _ => E.ret

theorem optOver_e (hr : RExt Y r) (ts : List Tok) : E Y (optOver r ts) (optOver P (ts ++ cl Y)) := by
  unfold optOver
  refine E.ite (next2_app rfl rfl _) (fun h => ?_) fun _ => E.ite (next2_app rfl rfl _) (fun h => ?_) fun _ => E.ret
  · rw [drop2_next2 h]
    exact hr.e.bind fun _ _ _ => E.ret
  · rw [drop1_next2 h]
    exact (pIdent_e _).bind fun _ _ _ => E.ret

theorem optNulls_app (ts : List Tok) : optNulls (ts ++ cl Y) = ((optNulls ts).1, (optNulls ts).2 ++ cl Y) := by
  unfold optNulls
  rw [next2_app rfl rfl, next2_app rfl rfl]
  split
  · rename_i h; rw [drop2_next2 h]
  · split
    · rename_i h; rw [drop2_next2 h]
    · rfl

theorem optNullsOver_e (hr : RExt Y r) (ts : List Tok) : E Y (optNullsOver r ts) (optNullsOver P (ts ++ cl Y)) := by
  unfold optNullsOver
  rw [optNulls_app]
  obtain ⟨a, b⟩ := optNulls ts
  cases a with
  | none => exact (optOver_e hr _).bind fun _ _ _ => E.ret
  | some n => exact (optOver_e hr _).bind fun _ _ _ => E.ite rfl (fun _ => E.ret) fun _ => E.no

theorem callArgs_e (hr : RExt Y r) (q : Option Tok) {ts : List Tok} (h : ts ≠ []) :
    E Y (callArgs r q ts) (callArgs P q (ts ++ cl Y)) := by
  unfold callArgs
  exact E.ite (by rw [nextSym_cons _ h, nextKw_app]) (fun _ => E.ret) fun _ => hr.e

/-- A call without `*` holds its closing parenthesis. -/
theorem call_mem (hr : PSound r) {q : Option Tok} {ts : List Tok} {a b u} (h1 : callArgs r q ts = some a)
    (h2 : optOrder r a.2 = some b) (h3 : sym (c% ")") b.2 = some u) : symT (c% ")") ∈ ts := by
  have s2 : b.2 <:+ a.2 := by
    unfold optOrder at h2
    split at h2
    · cases h2; exact List.suffix_refl _
    · rename_i v hk
      inv h2
      obtain ⟨w, h4, h5⟩ := h2
      obtain ⟨_, _, h6⟩ := sorts_s hr h5
      exact h6.suffix.trans ((kw_reads h4).suffix.trans (kw_reads hk).suffix)
  have s1 : a.2 <:+ ts := by
    unfold callArgs at h1
    split at h1
    · cases h1; exact List.suffix_refl _
    · exact (exprs_s hr h1).2.2.suffix
  exact (s2.trans s1).mem (sym_mem h3)

theorem optTok_suffix (f : Tok → Bool) (ts : List Tok) : (optTok f ts).2 <:+ ts := by
  cases ts with
  | nil => exact List.suffix_refl _
  | cons t ts =>
    rw [optTok]
    split
    · exact List.suffix_cons _ _
    · exact List.suffix_refl _

theorem pCall_e (hr : RExt Y r) (n ts : List Tok) : E Y (pCall r n ts) (pCall P n (ts ++ cl Y)) := by
  unfold pCall
  cases hs : starArgs ts with
  | some x =>
    obtain ⟨l, u⟩ := x
    rw [starArgs_some hs]
    exact (optFilter_e hr _).bind fun _ _ _ => (optOver_e hr _).bind fun _ _ _ => E.ret
  | none =>
    refine E.weaken fun x hx => ?_
    have hx' := hx
    inv hx'
    obtain ⟨a, h1, b, h2, u, h3, _⟩ := hx'
    have hm := call_mem hr.sound h1 h2 h3
    rw [starArgs_no hs ((optTok_suffix _ _).mem hm), optTok_app rfl]
    exact (callArgs_e hr _ (List.ne_nil_of_mem hm)).bind fun _ _ _ => (optOrder_e hr _).bind fun _ _ _ =>
      (sym_e _ _).bind fun _ _ => (optFilter_e hr _).bind fun _ _ _ => (optNullsOver_e hr _).bind fun _ _ _ => E.ret

theorem optSep_e (ts : List Tok) : E Y (optSep ts) (optSep (ts ++ cl Y)) := by
  unfold optSep
  rw [sym_app (by decide)]
  cases sym (c% ",") ts with
  | none => exact E.ret
  | some u => exact (pString_e _).bind fun _ _ _ => E.ret

theorem pCount_e (ts : List Tok) : E Y (pCount ts) (pCount (ts ++ cl Y)) := by
  unfold pCount
  exact (tokIf_e _ _).bind fun _ _ _ => (kw_e _ _).bind fun _ _ => E.ret

theorem optOverflow_e (ts : List Tok) : E Y (optOverflow ts) (optOverflow (ts ++ cl Y)) := by
  unfold optOverflow
  rw [kw_app]
  cases kw (c% "ON") ts with
  | none => exact E.ret
  | some u =>
    refine (kw_e _ _).bind fun v _ => ?_
    rw [kw_app]
    cases kw (c% "ERROR") v with
    | some w => exact E.ret
    | none => exact (kw_e _ _).bind fun _ _ => (optString_e _).bind fun _ _ _ => (pCount_e _).bind fun _ _ _ => E.ret

theorem pListAgg_e (hr : RExt Y r) (ts : List Tok) : E Y (pListAgg r ts) (pListAgg P (ts ++ cl Y)) := by
  unfold pListAgg
  refine (sym_e _ _).bind fun u _ => ?_
  rw [optTok_app rfl]
  exact hr.e.bind fun _ _ _ => (optSep_e _).bind fun _ _ _ => (optOverflow_e _).bind fun _ _ _ => (sym_e _ _).bind fun _ _ =>
    (kw_e _ _).bind fun _ _ => (kw_e _ _).bind fun _ _ => (sym_e _ _).bind fun _ _ => (kw_e _ _).bind fun _ _ =>
    (kw_e _ _).bind fun _ _ => hr.e.bind fun _ _ _ => (sym_e _ _).bind fun _ _ => E.ret

theorem caseOperand_e (hr : RExt Y r) (ts : List Tok) : E Y (caseOperand r ts) (caseOperand P (ts ++ cl Y)) := by
  unfold caseOperand
  exact E.ite (nextKw_app _ _) (fun _ => E.ret) fun _ => hr.e.bind fun _ _ _ => E.ret

theorem pCase_e (hr : RExt Y r) (ts : List Tok) : E Y (pCase r ts) (pCase P (ts ++ cl Y)) := by
  unfold pCase
  exact (caseOperand_e hr _).bind fun _ _ _ => hr.e.bind fun _ _ _ => (optExpr_e hr _ _).bind fun _ _ _ =>
    (kw_e _ _).bind fun _ _ => E.ret

theorem pCast_e (hr : RExt Y r) (b : Bool) (ts : List Tok) : E Y (pCast r b ts) (pCast P b (ts ++ cl Y)) := by
  unfold pCast
  refine (sym_e _ _).bind fun _ _ => hr.e.bind fun _ _ _ => (kw_e _ _).bind fun u _ => (pType_e _).bind fun t v ht =>
    (sym_e _ _).bind fun w _ => ?_
  obtain ⟨pre, _, hp⟩ := pType_sound ht
  have : (u ++ cl Y).take ((u ++ cl Y).length - (v ++ cl Y).length) = u.take (u.length - v.length) := by
    rw [hp]
    simp only [List.length_append]
    rw [show pre.length + v.length + (cl Y).length - (v.length + (cl Y).length) = pre.length by omega,
      show pre.length + v.length - v.length = pre.length by omega, List.append_assoc, List.take_left, List.take_left]
  dsimp only
  rw [this]
  exact E.ret

theorem optPrec_e (ts : List Tok) : E Y (optPrec ts) (optPrec (ts ++ cl Y)) := by
  unfold optPrec
  rw [sym_app (by decide)]
  cases sym (c% "(") ts with
  | none => exact E.ret
  | some u => exact (pKind_e _ _).bind fun _ _ _ => (sym_e _ _).bind fun _ _ => E.ret

theorem optForm_e (ts : List Tok) : E Y (optForm ts) (optForm (ts ++ cl Y)) := by
  unfold optForm
  rw [sym_app (by decide)]
  cases sym (c% ",") ts with
  | none => exact E.ret
  | some u => exact (tokIf_e _ _).bind fun _ _ _ => E.ret

theorem pNormalize_e (hr : RExt Y r) (ts : List Tok) : E Y (pNormalize r ts) (pNormalize P (ts ++ cl Y)) := by
  unfold pNormalize
  exact (sym_e _ _).bind fun _ _ => hr.e.bind fun _ _ _ => (optForm_e _).bind fun _ _ _ => (sym_e _ _).bind fun _ _ => E.ret

theorem pExists_e (hr : RExt Y r) (ts : List Tok) : E Y (pExists r ts) (pExists P (ts ++ cl Y)) := by
  unfold pExists
  exact (sym_e _ _).bind fun _ _ => (pSub_e hr _).bind fun _ _ _ => E.ret

theorem pPosition_e (hr : RExt Y r) (ts : List Tok) : E Y (pPosition r ts) (pPosition P (ts ++ cl Y)) := by
  unfold pPosition
  exact (sym_e _ _).bind fun _ _ => hr.e.bind fun _ _ _ => (kw_e _ _).bind fun _ _ => hr.e.bind fun _ _ _ =>
    (sym_e _ _).bind fun _ _ => E.ret

theorem optValue_e (hr : RExt Y r) (k : Str) (ts : List Tok) : E Y (optValue r k ts) (optValue P k (ts ++ cl Y)) := by
  unfold optValue
  rw [kw_app]
  cases kw k ts with
  | none => exact E.ret
  | some u => exact hr.e.bind fun _ _ _ => E.ret

theorem pSubstring_e (hr : RExt Y r) (ts : List Tok) : E Y (pSubstring r ts) (pSubstring P (ts ++ cl Y)) := by
  unfold pSubstring
  exact (sym_e _ _).bind fun _ _ => hr.e.bind fun _ _ _ => (kw_e _ _).bind fun _ _ => hr.e.bind fun _ _ _ =>
    (optValue_e hr _ _).bind fun _ _ _ => (sym_e _ _).bind fun _ _ => E.ret

theorem pExtract_e (hr : RExt Y r) (ts : List Tok) : E Y (pExtract r ts) (pExtract P (ts ++ cl Y)) := by
  unfold pExtract
  exact (sym_e _ _).bind fun _ _ => (pIdent_e _).bind fun _ _ _ => (kw_e _ _).bind fun _ _ => hr.e.bind fun _ _ _ =>
    (sym_e _ _).bind fun _ _ => E.ret

theorem trimChar_e (hr : RExt Y r) (ts : List Tok) : E Y (trimChar r ts) (trimChar P (ts ++ cl Y)) := by
  unfold trimChar
  exact E.ite (nextKw_app _ _) (fun _ => E.ret) fun _ => hr.e.bind fun _ _ _ => E.ret

theorem optComma_e (hr : RExt Y r) (ts : List Tok) : E Y (optComma r ts) (optComma P (ts ++ cl Y)) := by
  unfold optComma
  rw [sym_app (by decide)]
  cases sym (c% ",") ts with
  | none => exact E.ret
  | some u => exact hr.e.bind fun _ _ _ => E.ret

theorem trimPlain_e (hr : RExt Y r) (s : Option Tok) (c : Option CE) (ts : List Tok) :
    E Y (trimPlain r s c ts) (trimPlain P s c (ts ++ cl Y)) := by
  cases s with
  | some s => exact E.no
  | none =>
    cases c with
    | none => exact E.no
    | some e => exact (optComma_e hr _).bind fun _ _ _ => (sym_e _ _).bind fun _ _ => E.ret

theorem pTrim_e (hr : RExt Y r) (ts : List Tok) : E Y (pTrim r ts) (pTrim P (ts ++ cl Y)) := by
  unfold pTrim
  refine (sym_e _ _).bind fun u _ => ?_
  rw [optTok_app rfl]
  refine (trimChar_e hr _).bind fun c v _ => ?_
  refine E.ite (nextKw_app _ _) (fun h => ?_) fun _ => trimPlain_e hr _ _ _
  dsimp only
  rw [drop1_kw h]
  exact hr.e.bind fun _ _ _ => (sym_e _ _).bind fun _ _ => E.ret

theorem pGrouping_e (ts : List Tok) : E Y (pGrouping ts) (pGrouping (ts ++ cl Y)) := by
  unfold pGrouping
  refine (sym_e _ _).bind fun u _ => ?_
  cases u with
  | nil => exact E.no
  | cons t u =>
    rw [sym_cons _ (by simp)]
    cases sym (c% ")") (t :: u) with
    | some v => exact E.ret
    | none => exact (pQNames_e _).bind fun _ _ _ => (sym_e _ _).bind fun _ _ => E.ret

theorem scan_mem : ∀ {ts : List Tok} {d : Nat} {u : List Tok}, scanClose d ts = some u → symT (c% ")") ∈ ts
  | [], d, u, h => by simp [scanClose] at h
  | t :: ts, d, u, h => by
    rw [scan_cons] at h
    split at h
    · exact List.mem_cons_of_mem _ (scan_mem h)
    · split at h
      · rename_i h2; rw [isSym_eq h2]; simp
      · exact List.mem_cons_of_mem _ (scan_mem h)

theorem pParen_e (hr : RExt Y r) (ts : List Tok) : E Y (pParen r ts) (pParen P (ts ++ cl Y)) := by
  unfold pParen
  cases hl : lamHead ts with
  | some x =>
    obtain ⟨ids, u⟩ := x
    rw [lamHead_some hl]
    exact hr.e.bind fun _ _ _ => E.ret
  | none =>
    refine E.weaken fun x hx => ?_
    have hs : ∃ u, scanClose 0 ts = some u := by
      dsimp only at hx
      split at hx
      · inv hx
        obtain ⟨q, h1, _⟩ := hx
        exact ⟨_, sub_scan hr.sound h1⟩
      · inv hx
        obtain ⟨es, h1, u, h2, _⟩ := hx
        exact ⟨_, exprs_scan hr.sound h1 h2⟩
    obtain ⟨u, hs⟩ := hs
    rw [lamHead_no hl (scan_mem hs)]
    refine E.ite (qStart_app hs) (fun _ => ?_) fun _ => ?_
    · exact (pSub_e hr _).bind fun _ _ _ => E.ret
    · exact hr.e.bind fun _ _ _ => (sym_e _ _).bind fun _ _ => E.ret

theorem pName_e (hr : RExt Y r) (t : Tok) (ts : List Tok) : E Y (pName r t ts) (pName P t (ts ++ cl Y)) := by
  unfold pName
  refine E.ite (nextStr_app _) (fun _ => ?_) fun _ => E.ite (nextSym_app (by decide) _) (fun h => ?_) fun _ => ?_
  · exact (pString_e _).bind fun _ _ _ => E.ret
  · rw [drop1_sym h]
    exact hr.e.bind fun _ _ _ => E.ret
  · refine (pQName_e (t :: ts)).bind fun n u _ => E.ite (nextSym_app (by decide) _) (fun h => ?_) fun _ => E.ret
    dsimp only
    rw [drop1_sym h]
    exact pCall_e hr _ _

theorem intervalNext_app (ts : List Tok) : intervalNext (ts ++ cl Y) = intervalNext ts := by
  unfold intervalNext
  rw [nextStr_app, nextIs_app rfl]
  cases hn : nextIs (Tok.isSymOf [c% "+", c% "-"]) ts with
  | false => simp
  | true =>
    match ts, hn with
    | t :: ts, _ =>
      show (_ || (true && nextStr (ts ++ cl Y))) = _
      rw [nextStr_app]
      rfl

theorem pPrimary_e (hr : RExt Y r) (t : Tok) (ts : List Tok) : E Y (pPrimary r t ts) (pPrimary P t (ts ++ cl Y)) := by
  unfold pPrimary
  refine E.ite rfl (fun _ => pParen_e hr _) fun _ => ?_
  refine E.ite rfl (fun _ => E.ret) fun _ => ?_
  refine E.ite rfl (fun _ => (tokIf_e _ _).bind fun _ _ _ => E.ret) fun _ => ?_
  refine E.ite rfl (fun _ => E.ret) fun _ => ?_
  refine E.ite rfl (fun _ => (pString_e (t :: ts)).bind fun _ _ _ => E.ret) fun _ => ?_
  refine E.ite rfl (fun _ => E.ret) fun _ => ?_
  refine E.ite rfl (fun _ => E.ret) fun _ => ?_
  refine E.ite rfl (fun _ => E.ret) fun _ => ?_
  refine E.ite rfl (fun _ => pCase_e hr _) fun _ => ?_
  refine E.ite rfl (fun _ => pCast_e hr _ _) fun _ => ?_
  refine E.ite (by rw [nextSym_app (by decide)]) (fun _ => pCast_e hr _ _) fun _ => ?_
  refine E.ite (by rw [nextSym_app (by decide)]) (fun h => ?_) fun _ => ?_
  · simp only [Bool.and_eq_true] at h
    rw [drop1_sym h.2]
    exact (pArgs_e hr _ _).bind fun _ _ _ => E.ret
  refine E.ite (by rw [nextSym_app (by decide)]) (fun h => ?_) fun _ => ?_
  · simp only [Bool.and_eq_true] at h
    rw [drop1_sym h.2]
    exact hr.e.bind fun _ _ _ => (sym_e _ _).bind fun _ _ => E.ret
  refine E.ite (by rw [intervalNext_app]) (fun _ => pInterval_e _) fun _ => ?_
  refine E.ite (by rw [nextKw_app]) (fun h => ?_) fun _ => ?_
  · simp only [Bool.and_eq_true] at h
    rw [drop1_kw h.2]
    exact (pString_e _).bind fun _ _ _ => E.ret
  refine E.ite rfl (fun _ => pListAgg_e hr _) fun _ => ?_
  refine E.ite rfl (fun _ => E.ret) fun _ => ?_
  refine E.ite rfl (fun _ => (optPrec_e _).bind fun _ _ _ => E.ret) fun _ => ?_
  refine E.ite rfl (fun _ => E.ret) fun _ => ?_
  refine E.ite rfl (fun _ => pNormalize_e hr _) fun _ => ?_
  refine E.ite rfl (fun _ => pExists_e hr _) fun _ => ?_
  refine E.ite (by rw [nextSym_app (by decide)]) (fun _ => pPosition_e hr _) fun _ => ?_
  refine E.ite (by rw [nextSym_app (by decide)]) (fun _ => pSubstring_e hr _) fun _ => ?_
  refine E.ite rfl (fun _ => pExtract_e hr _) fun _ => ?_
  refine E.ite rfl (fun _ => pTrim_e hr _) fun _ => ?_
  refine E.ite rfl (fun _ => pGrouping_e _) fun _ => ?_
  exact E.ite rfl (fun _ => pName_e hr _ _) fun _ => E.no

theorem pPostfix_e (hr : RExt Y r) (acc : CE) (ts : List Tok) : E Y (pPostfix r acc ts) (pPostfix P acc (ts ++ cl Y)) := by
  unfold pPostfix
  refine E.ite (nextSym_app (by decide) _) (fun h => ?_) fun _ => E.ite (next2_app rfl rfl _) (fun h => ?_) fun _ => E.ret
  · rw [drop1_sym h]
    exact hr.e.bind fun _ _ _ => (sym_e _ _).bind fun _ _ => hr.e
  · rw [drop1_next2 h]
    exact (pIdent_e _).bind fun _ _ _ => hr.e

theorem pZoneSpec_e (ts : List Tok) : E Y (pZoneSpec ts) (pZoneSpec (ts ++ cl Y)) := by
  unfold pZoneSpec
  refine E.ite (nextKw_app _ _) (fun h => ?_) fun _ => (pString_e _).bind fun _ _ _ => E.ret
  rw [drop1_kw h]
  exact pInterval_e _

theorem pAt_e (hr : RExt Y r) (acc : CE) (ts : List Tok) : E Y (pAt r acc ts) (pAt P acc (ts ++ cl Y)) := by
  unfold pAt
  exact E.ite (next2_app rfl rfl _) (fun _ => (kw_e _ _).bind fun _ _ => (kw_e _ _).bind fun _ _ => (kw_e _ _).bind fun _ _ =>
    (pZoneSpec_e _).bind fun _ _ _ => hr.e) fun _ => E.ret

theorem optEscape_e (hr : RExt Y r) (ts : List Tok) : E Y (optEscape r ts) (optEscape P (ts ++ cl Y)) := by
  unfold optEscape
  rw [kw_app]
  cases kw (c% "ESCAPE") ts with
  | none => exact E.ret
  | some u => exact hr.e.bind fun _ _ _ => E.ret

theorem pNegatable_e (hr : RExt Y r) (acc : CE) (neg : Bool) (t : Tok) (ts : List Tok) :
    E Y (pNegatable r acc neg t ts) (pNegatable P acc neg t (ts ++ cl Y)) := by
  unfold pNegatable
  refine E.ite rfl (fun _ => ?_) fun _ => E.ite rfl (fun _ => ?_) fun _ => E.ite rfl (fun _ => ?_) fun _ => E.no
  · exact hr.e.bind fun _ _ _ => (kw_e _ _).bind fun _ _ => hr.e.bind fun _ _ _ => E.ret
  · refine (sym_e _ _).bind fun u _ => E.iteS (fun x hx => ?_) (fun _ => ?_) fun _ => ?_
    · split at hx
      · inv hx
        obtain ⟨q, h1, _⟩ := hx
        exact inStart_app (sub_scan hr.sound h1)
      · inv hx
        obtain ⟨es, h1, v, h2, _⟩ := hx
        exact inStart_app (exprs_scan hr.sound h1 h2)
    · exact (pSub_e hr _).bind fun _ _ _ => E.ret
    · exact hr.e.bind fun _ _ _ => (sym_e _ _).bind fun _ _ => E.ret
  · exact hr.e.bind fun _ _ _ => (optEscape_e hr _).bind fun _ _ _ => E.ret

theorem pIs_e (hr : RExt Y r) (acc : CE) (ts : List Tok) : E Y (pIs r acc ts) (pIs P acc (ts ++ cl Y)) := by
  unfold pIs
  rw [optKw_app]
  dsimp only
  rw [kw_app]
  cases kw (c% "NULL") (optKw (c% "NOT") ts).2 with
  | some u => exact E.ret
  | none => exact (kw_e _ _).bind fun _ _ => (kw_e _ _).bind fun _ _ => hr.e.bind fun _ _ _ => E.ret

/-- `ANY (`, `ALL (`, `SOME (` as a value is a function call. -/
theorem anyCall {t : Tok} {ts : List Tok} {x} (ht : t.isCmpQuant = true)
    (h : P (.lv 4) (t :: symT (c% "(") :: ts) = some x) : ∃ u, scanClose 0 ts = some u := by
  obtain ⟨hk, hw⟩ := isKwOf_eq ht
  have step : ∀ p, p ≤ 6 → p ≠ 2 → ∀ {x ts}, P (.lv p) ts = some x → ∃ y, P (.lv (p + 1)) ts = some y := by
    intro p hp h2 x ts h
    rw [P_lv] at h
    have : pLevel P p ts = pOperand P p ts := by
      unfold pLevel
      split
      · exact absurd rfl h2
      · omega
      · omega
      · rw [if_pos hp]
    rw [this, pOperand] at h
    inv h
    obtain ⟨y, h1, _⟩ := h
    exact ⟨y, h1⟩
  obtain ⟨_, h⟩ := step 4 (by omega) (by omega) h
  obtain ⟨_, h⟩ := step 5 (by omega) (by omega) h
  obtain ⟨_, h⟩ := step 6 (by omega) (by omega) h
  rw [P_lv] at h
  have hs : ∀ s, t.isSym s = false := fun s => by simp [Tok.isSym, hk]
  have hn : t.isNum = false := by simp [Tok.isNum, hk]
  rw [pLevel, signNext, hs, hs] at h
  simp only [Bool.false_or, Bool.false_and, Bool.false_eq_true, if_false] at h
  rw [pOperand] at h
  inv h
  obtain ⟨y, h, _⟩ := h
  rw [P_lv8] at h
  simp only [Option.bind_eq_some_iff] at h
  obtain ⟨z, h, _⟩ := h
  have kwo : ∀ ks : List Str, (∀ k ∈ [c% "ALL", c% "SOME", c% "ANY"], k ∉ ks) → t.isKwOf ks = false := by
    intro ks hks
    rw [Bool.eq_false_iff]
    intro hc
    exact hks _ hw (isKwOf_eq hc).2
  have kw1 : ∀ k : Str, k ∉ [c% "ALL", c% "SOME", c% "ANY"] → t.isKw k = false := by
    intro k hks
    rw [Bool.eq_false_iff]
    intro hc
    rw [(isKw_eq hc).2] at hw
    exact hks hw
  unfold pPrimary at h
  rw [hs, hs, hs, hn, kw1 _ (by decide), kwo _ (by decide), kw1 _ (by decide), kw1 _ (by decide), kw1 _ (by decide), kw1 _ (by decide),
    kw1 _ (by decide), kw1 _ (by decide), kw1 _ (by decide), kw1 _ (by decide), kw1 _ (by decide), kwo _ (by decide),
    kwo _ (by decide), kw1 _ (by decide), kw1 _ (by decide), kw1 _ (by decide), kw1 _ (by decide), kw1 _ (by decide),
    kw1 _ (by decide), kw1 _ (by decide), hk] at h
  have hi : t.isIdent = true := by
    rw [Tok.isIdent, hk]
    simp only [List.contains_iff_mem]
    simp only [List.mem_cons, List.not_mem_nil, or_false] at hw
    rcases hw with hw | hw | hw <;> rw [hw] <;> decide +kernel
  have h : pName P t (symT (c% "(") :: ts) = some z := by
    simpa [hi] using h
  have hnm := (pName_s P_sound hi h)
  obtain ⟨hwf, _, used, hu, hcn⟩ := hnm
  have hb := Bal.canon hcn (CE.wbal _ hwf)
  have hlen : 2 ≤ used.length := by
    have hl : used.length = z.1.yield.length := by
      have := congrArg List.length hcn
      simpa using this
    rw [hl]
    unfold pName at h
    rw [if_neg (show ¬ nextStr (symT (c% "(") :: ts) = true from fun hx => by cases hx), if_neg (show ¬ nextSym (c% "->") (symT (c% "(") :: ts) = true from (by decide : ¬ (symT (c% "(")).isSym (c% "->") = true))] at h
    have hq : pQName (t :: symT (c% "(") :: ts) = some ([t], symT (c% "(") :: ts) := by
      rw [pQName, hi]
      rfl
    rw [hq] at h
    have h : pCall P [t] ts = some z := h
    unfold pCall at h
    split at h
    · inv h
      obtain ⟨f, _, o, _, rfl⟩ := h
      rw [CE_yield_callStar]
      simp [Spec.qname, Spec.sepBy, inParens]
    · inv h
      obtain ⟨a, _, b, _, u, _, f, _, o, _, rfl⟩ := h
      rw [CE_yield_call]
      simp [Spec.qname, Spec.sepBy, inParens]
  match used, hlen with
  | a :: b :: used, _ =>
    simp only [List.cons_append, List.cons.injEq] at hu
    obtain ⟨rfl, rfl, hu⟩ := hu
    have hb' : Bal (symT (c% "(") :: used) := by
      intro d rest
      have := hb d rest
      rwa [List.cons_append, scan_np ⟨hs _, hs _⟩] at this
    obtain ⟨u, hu'⟩ := hb'.closed
    exact ⟨_, by rw [hu]; exact scan_app _ hu'⟩

theorem pCompared_e (hr : RExt Y r) (acc : CE) (t : Tok) (ts : List Tok) :
    E Y (pCompared r acc t ts) (pCompared P acc t (ts ++ cl Y)) := by
  unfold pCompared
  refine E.iteS (fun x hx => ?_) (fun _ => ?_) fun _ => hr.e.bind fun _ _ _ => E.ret
  · rw [next2_app rfl rfl]
    cases hn : next2 Tok.isCmpQuant (Tok.isSym (c% "(")) ts with
    | false => rfl
    | true =>
      rw [hn] at hx
      rw [drop2_next2 hn]
      simp only [Bool.true_and] at hx ⊢
      have : ∃ u, scanClose 0 (ts.drop 2) = some u := by
        match ts, hn with
        | a :: b :: ts, hn =>
          simp only [next2, Bool.and_eq_true] at hn
          split at hx
          · inv hx
            obtain ⟨k, h1, u, h2, q, h3, _⟩ := hx
            rw [tokIf, if_pos hn.1] at h1
            cases h1
            rw [sym, if_pos hn.2] at h2
            cases h2
            exact ⟨_, sub_scan hr.sound h3⟩
          · inv hx
            obtain ⟨e, h1, _⟩ := hx
            have h1 := (hr _ _ _ h1).1
            rw [isSym_eq hn.2] at h1
            exact anyCall hn.1 h1
      obtain ⟨u, hu⟩ := this
      exact inStart_app hu
  · exact (tokIf_e _ _).bind fun _ _ _ => (sym_e _ _).bind fun _ _ => (pSub_e hr _).bind fun _ _ _ => E.ret

theorem pPredicate_e (hr : RExt Y r) (acc : CE) (ts : List Tok) : E Y (pPredicate r acc ts) (pPredicate P acc (ts ++ cl Y)) := by
  cases ts with
  | nil => exact E.ret
  | cons t ts =>
    rw [List.cons_append, pPredicate, pPredicate]
    refine E.ite rfl (fun _ => pCompared_e hr _ _ _) fun _ => E.ite rfl (fun _ => pIs_e hr _ _) fun _ =>
      E.ite rfl (fun _ => pNegatable_e hr _ _ _ _) fun _ => E.ite (by rw [nextIs_app rfl]) (fun _ => ?_) fun _ =>
      E.ret (ts := t :: ts)
    exact (tokIf_e _ _).bind fun _ _ _ => pNegatable_e hr _ _ _ _

theorem binOp_close (p : Nat) : binOp p (symT (c% ")")) = none := by
  unfold binOp
  split <;> rfl

theorem pBinLoop_e (hr : RExt Y r) (p : Nat) (acc : CE) (ts : List Tok) :
    E Y (pBinLoop r p acc ts) (pBinLoop P p acc (ts ++ cl Y)) := by
  cases ts with
  | nil =>
    show E Y (some (acc, [])) (pBinLoop P p acc (symT (c% ")") :: Y))
    rw [pBinLoop, binOp_close]
    exact E.ret (ts := [])
  | cons t ts =>
    rw [List.cons_append, pBinLoop, pBinLoop]
    cases binOp p t with
    | none => exact E.ret (ts := t :: ts)
    | some f => exact hr.e.bind fun _ _ _ => hr.e

theorem pOperand_e (hr : RExt Y r) (p : Nat) (ts : List Tok) : E Y (pOperand r p ts) (pOperand P p (ts ++ cl Y)) := by
  unfold pOperand
  exact hr.e.bind fun _ _ _ => hr.e

theorem signNext_app (ts : List Tok) : signNext (ts ++ cl Y) = signNext ts := by
  cases ts with
  | nil => rfl
  | cons t ts => rw [List.cons_append, signNext, signNext, nextIs_app rfl]

theorem pLevel_e (hr : RExt Y r) (p : Nat) (ts : List Tok) : E Y (pLevel r p ts) (pLevel P p (ts ++ cl Y)) := by
  unfold pLevel
  split
  · refine E.ite (nextKw_app _ _) (fun h => ?_) fun _ => hr.e
    rw [drop1_kw h]
    exact hr.e.bind fun _ _ _ => E.ret
  · exact E.ite (signNext_app _) (fun _ => (tokIf_e _ _).bind fun _ _ _ => hr.e.bind fun _ _ _ => E.ret) fun _ => pOperand_e hr _ _
  · exact (tokIf_e _ _).bind fun _ _ _ => (pPrimary_e hr _ _).bind fun _ _ _ => hr.e
  · split
    · exact pOperand_e hr _ _
    · exact E.no

theorem pLoop_e (hr : RExt Y r) (p : Nat) (acc : CE) (ts : List Tok) : E Y (pLoop r p acc ts) (pLoop P p acc (ts ++ cl Y)) := by
  unfold pLoop
  split
  · exact pPredicate_e hr _ _
  · exact pAt_e hr _ _
  · exact pPostfix_e hr _ _
  · exact pBinLoop_e hr _ _ _

theorem pWhen_e (hr : RExt Y r) (ts : List Tok) : E Y (pWhen r ts) (pWhen P (ts ++ cl Y)) := by
  unfold pWhen
  exact (kw_e _ _).bind fun _ _ => hr.e.bind fun _ _ _ => (kw_e _ _).bind fun _ _ => hr.e.bind fun _ _ _ => E.ret

theorem pWhens_e (hr : RExt Y r) (ts : List Tok) : E Y (pWhens r ts) (pWhens P (ts ++ cl Y)) := by
  unfold pWhens
  exact (pWhen_e hr _).bind fun _ _ _ => E.ite (nextKw_app _ _) (fun _ => hr.e.bind fun _ _ _ => E.ret) fun _ => E.ret

theorem optNullOrder_e (ts : List Tok) : E Y (optNullOrder ts) (optNullOrder (ts ++ cl Y)) := by
  unfold optNullOrder
  rw [kw_app]
  cases kw (c% "NULLS") ts with
  | none => exact E.ret
  | some u => exact (tokIf_e _ _).bind fun _ _ _ => E.ret

theorem pSort_e (hr : RExt Y r) (ts : List Tok) : E Y (pSort r ts) (pSort P (ts ++ cl Y)) := by
  unfold pSort
  refine hr.e.bind fun _ _ _ => ?_
  dsimp only
  rw [optTok_app rfl]
  exact (optNullOrder_e _).bind fun _ _ _ => E.ret

theorem pBound_e (hr : RExt Y r) (ts : List Tok) : E Y (pBound r ts) (pBound P (ts ++ cl Y)) := by
  unfold pBound
  refine E.ite (next2_app rfl rfl _) (fun h => ?_) fun _ => E.ite (next2_app rfl rfl _) (fun h => ?_) fun _ => ?_
  · rw [drop1_next2 h]
    exact (tokIf_e _ _).bind fun _ _ _ => E.ret
  · rw [drop2_next2 h]
    exact E.ret
  · exact hr.e.bind fun _ _ _ => (tokIf_e _ _).bind fun _ _ _ => E.ret

theorem optFrame_e (hr : RExt Y r) (ts : List Tok) : E Y (optFrame r ts) (optFrame P (ts ++ cl Y)) := by
  unfold optFrame
  refine E.ite (nextIs_app rfl _) (fun h => ?_) fun _ => E.ret
  refine (tokIf_e _ _).bind fun t u _ => ?_
  dsimp only
  rw [kw_app]
  cases kw (c% "BETWEEN") u with
  | none => exact (pBound_e hr _).bind fun _ _ _ => E.ret
  | some v => exact (pBound_e hr _).bind fun _ _ _ => (kw_e _ _).bind fun _ _ => (pBound_e hr _).bind fun _ _ _ => E.ret

theorem optPartition_e (hr : RExt Y r) (ts : List Tok) : E Y (optPartition r ts) (optPartition P (ts ++ cl Y)) := by
  unfold optPartition
  rw [kw_app]
  cases kw (c% "PARTITION") ts with
  | none => exact E.ret
  | some u => exact (kw_e _ _).bind fun _ _ => hr.e

theorem pWin_e (hr : RExt Y r) (ts : List Tok) : E Y (pWin r ts) (pWin P (ts ++ cl Y)) := by
  unfold pWin
  rw [optTok_app rfl]
  exact (optPartition_e hr _).bind fun _ _ _ => (optOrder_e hr _).bind fun _ _ _ => (optFrame_e hr _).bind fun _ _ _ =>
    (sym_e _ _).bind fun _ _ => E.ret

theorem optWith_e (hr : RExt Y r) (ts : List Tok) : E Y (optWith r ts) (optWith P (ts ++ cl Y)) := by
  unfold optWith
  rw [kw_app]
  cases kw (c% "WITH") ts with
  | none => exact E.ret
  | some u =>
    simp only [Option.map_some]
    rw [optKw_app]
    exact hr.e.bind fun _ _ _ => E.ret

theorem pQuery_e (hr : RExt Y r) (ts : List Tok) : E Y (pQuery r ts) (pQuery P (ts ++ cl Y)) := by
  unfold pQuery
  exact (optWith_e hr _).bind fun _ _ _ => hr.e.bind fun _ _ _ => E.ret

theorem pNamed_e (hr : RExt Y r) (ts : List Tok) : E Y (pNamed r ts) (pNamed P (ts ++ cl Y)) := by
  unfold pNamed
  exact (pIdent_e _).bind fun _ _ _ => (optColumns_e _).bind fun _ _ _ => (kw_e _ _).bind fun _ _ => (sym_e _ _).bind fun _ _ =>
    (pSub_e hr _).bind fun _ _ _ => E.ret

theorem optOffset_e (ts : List Tok) : E Y (optOffset ts) (optOffset (ts ++ cl Y)) := by
  unfold optOffset
  rw [kw_app]
  cases kw (c% "OFFSET") ts with
  | none => exact E.ret
  | some u =>
    refine (tokIf_e _ _).bind fun _ _ _ => ?_
    dsimp only
    rw [optTok_app rfl]
    exact E.ret

theorem pTies_e (ts : List Tok) : E Y (pTies ts) (pTies (ts ++ cl Y)) := by
  unfold pTies
  rw [kw_app]
  cases kw (c% "ONLY") ts with
  | some u => exact E.ret
  | none => exact (kw_e _ _).bind fun _ _ => (kw_e _ _).bind fun _ _ => E.ret

theorem optLimit_e (ts : List Tok) : E Y (optLimit ts) (optLimit (ts ++ cl Y)) := by
  unfold optLimit
  rw [kw_app]
  cases kw (c% "LIMIT") ts with
  | some u => exact (tokIf_e _ _).bind fun _ _ _ => E.ret
  | none =>
    simp only [Option.map_none]
    rw [kw_app]
    cases kw (c% "FETCH") ts with
    | none => exact E.ret
    | some u =>
      refine (tokIf_e _ _).bind fun _ _ _ => ?_
      dsimp only
      rw [optTok_app rfl]
      exact (tokIf_e _ _).bind fun _ _ _ => (pTies_e _).bind fun _ _ _ => E.ret

theorem pQnw_e (hr : RExt Y r) (ts : List Tok) : E Y (pQnw r ts) (pQnw P (ts ++ cl Y)) := by
  unfold pQnw
  exact hr.e.bind fun _ _ _ => (optOrder_e hr _).bind fun _ _ _ => (optOffset_e _).bind fun _ _ _ =>
    (optLimit_e _).bind fun _ _ _ => E.ret

theorem isSetOp_close (p : Nat) : Tok.isSetOp p (symT (c% ")")) = false := by
  unfold Tok.isSetOp
  split <;> rfl

theorem pQLoop_e (hr : RExt Y r) (p : Nat) (acc : CQT) (ts : List Tok) : E Y (pQLoop r p acc ts) (pQLoop P p acc (ts ++ cl Y)) := by
  unfold pQLoop
  refine E.ite (nextIs_app (isSetOp_close p) _) (fun _ => ?_) fun _ => E.ret
  refine (tokIf_e _ _).bind fun _ _ _ => ?_
  dsimp only
  rw [optTok_app rfl]
  exact hr.e.bind fun _ _ _ => hr.e

theorem optFrom_e (hr : RExt Y r) (ts : List Tok) : E Y (optFrom r ts) (optFrom P (ts ++ cl Y)) := by
  unfold optFrom
  rw [kw_app]
  cases kw (c% "FROM") ts with
  | none => exact E.ret
  | some u => exact hr.e

theorem optGroup_e (hr : RExt Y r) (ts : List Tok) : E Y (optGroup r ts) (optGroup P (ts ++ cl Y)) := by
  unfold optGroup
  rw [kw_app]
  cases kw (c% "GROUP") ts with
  | none => exact E.ret
  | some u =>
    refine (kw_e _ _).bind fun _ _ => ?_
    rw [optTok_app rfl]
    exact hr.e.bind fun _ _ _ => E.ret

theorem optWindow_e (hr : RExt Y r) (ts : List Tok) : E Y (optWindow r ts) (optWindow P (ts ++ cl Y)) := by
  unfold optWindow
  rw [kw_app]
  cases kw (c% "WINDOW") ts with
  | none => exact E.ret
  | some u => exact hr.e

theorem pSelect_e (hr : RExt Y r) (ts : List Tok) : E Y (pSelect r ts) (pSelect P (ts ++ cl Y)) := by
  unfold pSelect
  rw [optTok_app rfl]
  exact hr.e.bind fun _ _ _ => (optFrom_e hr _).bind fun _ _ _ => (optExpr_e hr _ _).bind fun _ _ _ =>
    (optGroup_e hr _).bind fun _ _ _ => (optExpr_e hr _ _).bind fun _ _ _ => (optWindow_e hr _).bind fun _ _ _ => E.ret

theorem pQPrimary_e (hr : RExt Y r) (ts : List Tok) : E Y (pQPrimary r ts) (pQPrimary P (ts ++ cl Y)) := by
  cases ts with
  | nil => exact E.no
  | cons t ts =>
    rw [List.cons_append, pQPrimary, pQPrimary]
    refine E.ite rfl (fun _ => pSelect_e hr _) fun _ => E.ite rfl (fun _ => ?_) fun _ => E.ite rfl (fun _ => ?_) fun _ =>
      E.ite rfl (fun _ => ?_) fun _ => E.no
    · exact (pQName_e _).bind fun _ _ _ => E.ret
    · exact hr.e.bind fun _ _ _ => E.ret
    · exact hr.e.bind fun _ _ _ => (sym_e _ _).bind fun _ _ => E.ret

theorem pQTerm_e (hr : RExt Y r) (p : Nat) (ts : List Tok) : E Y (pQTerm r p ts) (pQTerm P p (ts ++ cl Y)) := by
  unfold pQTerm
  split
  · exact hr.e.bind fun _ _ _ => hr.e
  · exact hr.e.bind fun _ _ _ => hr.e
  · exact pQPrimary_e hr _
  · exact E.no

theorem optAlias_e (ts : List Tok) : E Y (optAlias ts) (optAlias (ts ++ cl Y)) := by
  unfold optAlias
  rw [kw_app]
  cases kw (c% "AS") ts with
  | some u => exact (pIdent_e _).bind fun _ _ _ => E.ret
  | none =>
    simp only [Option.map_none]
    rw [optTok_app rfl]
    exact E.ret

theorem optAsColumns_e (ts : List Tok) : E Y (optAsColumns ts) (optAsColumns (ts ++ cl Y)) := by
  unfold optAsColumns
  rw [kw_app]
  cases kw (c% "AS") ts with
  | none => exact E.ret
  | some u => exact pColumns_e _

theorem pItem_e (hr : RExt Y r) (ts : List Tok) : E Y (pItem r ts) (pItem P (ts ++ cl Y)) := by
  unfold pItem
  rw [sym_app (by decide)]
  cases sym (c% "*") ts with
  | some u => exact E.ret
  | none =>
    refine hr.e.bind fun e u _ => E.ite (next2_app rfl rfl _) (fun h => E.ite rfl (fun _ => ?_) fun _ => E.no) fun _ => ?_
    · dsimp only
      rw [drop2_next2 h]
      exact (optAsColumns_e _).bind fun _ _ _ => E.ret
    · exact (optAlias_e _).bind fun _ _ _ => E.ret

theorem pSet_e (hr : RExt Y r) (ts : List Tok) : E Y (pSet r ts) (pSet P (ts ++ cl Y)) := by
  unfold pSet
  refine E.iteS (fun x hx => ?_) (fun h => ?_) fun _ => hr.e.bind fun _ _ _ => E.ret
  · rw [nextSym_app (by decide)]
    cases hn : nextSym (c% "(") ts with
    | false => rfl
    | true =>
      rw [drop1_sym hn]
      simp only [Bool.true_and]
      rw [hn] at hx
      simp only [Bool.true_and] at hx
      have : ∃ u, scanClose 0 (ts.drop 1) = some u := by
        split at hx
        · rename_i he
          have he := (Bool.and_eq_true _ _ ▸ he : _ ∧ _).1
          unfold setEnd afterClose at he
          split at he
          · rename_i u hu; exact ⟨u, hu⟩
          · cases he
        · inv hx
          obtain ⟨e, h1, _⟩ := hx
          obtain ⟨used, h2, h3, h4⟩ := lv_bal hr.sound h1
          match used, h4 with
          | a :: used, _ =>
            rw [h2] at hn ⊢
            rw [isSym_eq (show a.isSym (c% "(") = true from hn)] at h3
            obtain ⟨u, hu⟩ := h3.closed
            exact ⟨_, scan_app _ hu⟩
      obtain ⟨u, hu⟩ := this
      rw [inStart_app hu]
      unfold setEnd
      rw [afterClose_app hu (by rw [nextIs_app (by decide)])]
  · simp only [Bool.and_eq_true] at h
    rw [drop1_sym h.1]
    exact (pArgs_e hr _ _).bind fun _ _ _ => E.ret

theorem pGrp_e (hr : RExt Y r) (ts : List Tok) : E Y (pGrp r ts) (pGrp P (ts ++ cl Y)) := by
  unfold pGrp
  refine E.ite (next2_app rfl rfl _) (fun h => ?_) fun _ => E.ite (next2_app rfl rfl _) (fun h => ?_) fun _ =>
    E.ite (next2_app rfl rfl _) (fun h => ?_) fun _ => (pSet_e hr _).bind fun _ _ _ => E.ret
  · rw [drop2_next2 h]
    exact (pArgs_e hr _ _).bind fun _ _ _ => E.ret
  · rw [drop2_next2 h]
    exact (pArgs_e hr _ _).bind fun _ _ _ => E.ret
  · rw [drop2_next2 h]
    exact (sym_e _ _).bind fun _ _ => hr.e.bind fun _ _ _ => (sym_e _ _).bind fun _ _ => E.ret

theorem pWinDef_e (hr : RExt Y r) (ts : List Tok) : E Y (pWinDef r ts) (pWinDef P (ts ++ cl Y)) := by
  unfold pWinDef
  exact (pIdent_e _).bind fun _ _ _ => (kw_e _ _).bind fun _ _ => (sym_e _ _).bind fun _ _ => hr.e.bind fun _ _ _ => E.ret

theorem pJoinType_e (ts : List Tok) : E Y (pJoinType ts) (pJoinType (ts ++ cl Y)) := by
  unfold pJoinType
  rw [kw_app]
  cases kw (c% "JOIN") ts with
  | some u => exact E.ret
  | none =>
    simp only [Option.map_none]
    rw [kw_app]
    cases kw (c% "INNER") ts with
    | some u => exact (kw_e _ _).bind fun _ _ => E.ret
    | none =>
      simp only [Option.map_none]
      rw [kw_app]
      cases kw (c% "LEFT") ts with
      | some u =>
        simp only [Option.map_some]
        rw [optKw_app]
        exact (kw_e _ _).bind fun _ _ => E.ret
      | none =>
        simp only [Option.map_none]
        rw [kw_app]
        cases kw (c% "RIGHT") ts with
        | some u =>
          simp only [Option.map_some]
          rw [optKw_app]
          exact (kw_e _ _).bind fun _ _ => E.ret
        | none =>
          simp only [Option.map_none]
          refine (kw_e _ _).bind fun _ _ => ?_
          rw [optKw_app]
          exact (kw_e _ _).bind fun _ _ => E.ret

theorem pCrit_e (hr : RExt Y r) (ts : List Tok) : E Y (pCrit r ts) (pCrit P (ts ++ cl Y)) := by
  unfold pCrit
  rw [kw_app]
  cases kw (c% "ON") ts with
  | some u => exact hr.e.bind fun _ _ _ => E.ret
  | none => exact (kw_e _ _).bind fun _ _ => (pColumns_e _).bind fun _ _ _ => E.ret

theorem optOrdinality_app (ts : List Tok) : optOrdinality (ts ++ cl Y) = ((optOrdinality ts).1, (optOrdinality ts).2 ++ cl Y) := by
  unfold optOrdinality
  rw [next2_app rfl rfl]
  split
  · rename_i h; rw [drop2_next2 h]
  · rfl

theorem pRelPrimary_e (hr : RExt Y r) (ts : List Tok) : E Y (pRelPrimary r ts) (pRelPrimary P (ts ++ cl Y)) := by
  unfold pRelPrimary
  refine E.ite (nextSym_app (by decide) _) (fun h => ?_) fun _ => E.ite (nextKw_app _ _) (fun h => ?_) fun _ =>
    E.ite (nextKw_app _ _) (fun h => ?_) fun _ => ?_
  · rw [drop1_sym h]
    refine E.iteS (fun x hx => ?_) (fun _ => ?_) fun _ => ?_
    · split at hx
      · inv hx
        obtain ⟨q, h1, _⟩ := hx
        exact qStart_app (sub_scan hr.sound h1)
      · inv hx
        obtain ⟨es, h1, v, h2, _⟩ := hx
        exact qStart_app (rel_scan hr.sound h1 h2)
    · exact (pSub_e hr _).bind fun _ _ _ => E.ret
    · exact hr.e.bind fun _ _ _ => (sym_e _ _).bind fun _ _ => E.ret
  · rw [drop1_kw h]
    refine (sym_e _ _).bind fun _ _ => hr.e.bind fun _ _ _ => (sym_e _ _).bind fun _ _ => ?_
    rw [optOrdinality_app]
    exact E.ret
  · rw [drop1_kw h]
    exact (sym_e _ _).bind fun _ _ => (pSub_e hr _).bind fun _ _ _ => E.ret
  · exact (pQName_e _).bind fun _ _ _ => E.ret

theorem aliasColumns_e (a : Option Tok) (ts : List Tok) : E Y (aliasColumns a ts) (aliasColumns a (ts ++ cl Y)) := by
  unfold aliasColumns
  exact E.ite rfl (fun _ => optColumns_e _) fun _ => E.ret

theorem pAliased_e (hr : RExt Y r) (ts : List Tok) : E Y (pAliased r ts) (pAliased P (ts ++ cl Y)) := by
  unfold pAliased
  exact (pRelPrimary_e hr _).bind fun _ _ _ => (optAlias_e _).bind fun _ _ _ => (aliasColumns_e _ _).bind fun _ _ _ => E.ret

theorem pSampled_e (hr : RExt Y r) (ts : List Tok) : E Y (pSampled r ts) (pSampled P (ts ++ cl Y)) := by
  unfold pSampled
  refine (pAliased_e hr _).bind fun x u _ => ?_
  dsimp only
  rw [kw_app]
  cases kw (c% "TABLESAMPLE") u with
  | none => exact E.ret
  | some v => exact (tokIf_e _ _).bind fun _ _ _ => (sym_e _ _).bind fun _ _ => hr.e.bind fun _ _ _ => (sym_e _ _).bind fun _ _ => E.ret

theorem pRelLoop_e (hr : RExt Y r) (acc : CR) (ts : List Tok) : E Y (pRelLoop r acc ts) (pRelLoop P acc (ts ++ cl Y)) := by
  unfold pRelLoop
  refine E.ite (nextKw_app _ _) (fun h => ?_) fun _ => E.ite (nextKw_app _ _) (fun h => ?_) fun _ =>
    E.ite (nextIs_app rfl _) (fun h => ?_) fun _ => E.ret
  · rw [drop1_kw h]
    exact (kw_e _ _).bind fun _ _ => (pSampled_e hr _).bind fun _ _ _ => hr.e
  · rw [drop1_kw h]
    exact (pJoinType_e _).bind fun _ _ _ => (pSampled_e hr _).bind fun _ _ _ => hr.e
  · exact (pJoinType_e _).bind fun _ _ _ => hr.e.bind fun _ _ _ => (pCrit_e hr _).bind fun _ _ _ => hr.e

theorem pStep_e (hr : RExt Y r) (nt : NT) (ts : List Tok) : E Y (pStep r nt ts) (pStep P nt (ts ++ cl Y)) := by
  cases nt with
  | lv p => exact pLevel_e hr p ts
  | loop p acc => exact pLoop_e hr p acc ts
  | exprs => exact pSep_e (fun _ => hr.e) (fun _ => hr.e) ts
  | whens => exact pWhens_e hr ts
  | sorts => exact pSep_e (pSort_e hr) (fun _ => hr.e) ts
  | win => exact pWin_e hr ts
  | query => exact pQuery_e hr ts
  | qnw => exact pQnw_e hr ts
  | qterm p => exact pQTerm_e hr p ts
  | qloop p acc => exact pQLoop_e hr p acc ts
  | items => exact pSep_e (pItem_e hr) (fun _ => hr.e) ts
  | sets => exact pSep_e (pSet_e hr) (fun _ => hr.e) ts
  | grps => exact pSep_e (pGrp_e hr) (fun _ => hr.e) ts
  | wdefs => exact pSep_e (pWinDef_e hr) (fun _ => hr.e) ts
  | nameds => exact pSep_e (pNamed_e hr) (fun _ => hr.e) ts
  | rel => exact (pSampled_e hr _).bind fun _ _ _ => hr.e
  | relLoop acc => exact pRelLoop_e hr acc ts
  | rels => exact pSep_e (fun _ => hr.e) (fun _ => hr.e) ts

/-- What the parser reads from some tokens it reads from them followed by `)` and anything. -/
theorem P_ext (Y : List Tok) : RExt Y P := by
  refine P_induct (fun nt ts x => P nt ts = some x ∧ P nt (ts ++ cl Y) = some (x.1, x.2 ++ cl Y)) fun r hr nt ts x h => ?_
  constructor
  · have hle : Lean.Order.PartialOrder.rel r P := by
      intro nt ts
      cases hx : r nt ts with
      | none => exact Lean.Order.FlatOrder.rel.bot
      | some y => rw [(hr nt ts y hx).1]; exact Lean.Order.PartialOrder.rel_refl
    have := pStep_mono r P hle nt ts
    rw [← P_eq] at this
    rw [h] at this
    generalize P nt ts = y at this ⊢
    cases this
    rfl
  · obtain ⟨o, rest⟩ := x
    rw [P_eq]
    exact pStep_e hr nt ts o rest h

end Treeno
