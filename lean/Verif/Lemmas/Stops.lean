import Verif.Lemmas.Starts
/-!
# Where the parts of the parser stop
-/
set_option linter.unusedSimpArgs false
set_option linter.unusedVariables false
namespace Treeno
open Spec

/-! ## Tokens that go on with an expression -/

/-- The level at which a keyword goes on with an expression. -/
def kwRank (u : Str) : Option Nat :=
  if u = c% "OR" then some 0
  else if u = c% "AND" then some 1
  else if u ∈ [c% "NOT", c% "BETWEEN", c% "IN", c% "LIKE", c% "IS", c% "ESCAPE"] then some 3
  else if u = c% "AT" then some 7
  else if u ∈ [c% "FILTER", c% "IGNORE", c% "RESPECT", c% "OVER", c% "UESCAPE", c% "TO"] then some 9
  else none

/-- The level at which a symbol goes on with an expression. -/
def symRank (s : Str) : Option Nat :=
  if s ∈ [c% "=", c% "<>", c% "!=", c% "<", c% "<=", c% ">", c% ">="] then some 3
  else if s = c% "||" then some 4
  else if s ∈ [c% "+", c% "-"] then some 5
  else if s ∈ [c% "*", c% "/", c% "%"] then some 6
  else if s ∈ [c% "[", c% "."] then some 8
  else if s ∈ [c% "(", c% "->"] then some 9
  else none

/-- The level at which a token goes on with an expression. -/
def Tok.frank (t : Tok) : Option Nat := match t.kind with
  | .kw => kwRank (upper t.text)
  | .sym => symRank t.text
  | .str | .ustr => some 9
  | _ => none

/-- The tokens do not go on with an expression at level `p` or above. -/
def Stop (p : Nat) : List Tok → Prop
  | [] => True
  | t :: _ => ∀ k, t.frank = some k → k < p

theorem Stop.mono {p q : Nat} {ts : List Tok} (h : Stop p ts) (hpq : p ≤ q) : Stop q ts := by
  cases ts with
  | nil => trivial
  | cons t ts => intro k hk; have := h k hk; omega

theorem Stop.free {p : Nat} {t : Tok} {ts : List Tok} (h : t.frank = none) : Stop p (t :: ts) := by
  intro k hk; rw [h] at hk; cases hk

theorem Stop.lt {p k : Nat} {t : Tok} {ts : List Tok} (h : t.frank = some k) (hk : k < p) : Stop p (t :: ts) := by
  intro j hj; rw [h] at hj; cases hj; exact hk

theorem isSym_eq {t : Tok} {s : Str} (h : t.isSym s = true) : t = symT s := by
  simp only [Tok.isSym, Bool.and_eq_true, beq_iff_eq] at h
  obtain ⟨k, x⟩ := t
  simp only at h
  rw [symT, h.1, h.2]

theorem isSymOf_eq {t : Tok} {ss : List Str} (h : t.isSymOf ss = true) : ∃ s ∈ ss, t = symT s := by
  simp only [Tok.isSymOf, Bool.and_eq_true, beq_iff_eq, List.contains_iff_mem] at h
  obtain ⟨k, x⟩ := t
  simp only at h
  exact ⟨x, h.2, by rw [symT, h.1]⟩

theorem isKw_eq {t : Tok} {k : Str} (h : t.isKw k = true) : t.kind = .kw ∧ upper t.text = k := by
  simpa only [Tok.isKw, Bool.and_eq_true, beq_iff_eq] using h

theorem isKwOf_eq {t : Tok} {ks : List Str} (h : t.isKwOf ks = true) : t.kind = .kw ∧ upper t.text ∈ ks := by
  simpa only [Tok.isKwOf, Bool.and_eq_true, beq_iff_eq, List.contains_iff_mem] using h

theorem frank_kw {t : Tok} {k : Str} (h : t.isKw k = true) : t.frank = kwRank k := by
  obtain ⟨h1, h2⟩ := isKw_eq h
  rw [Tok.frank, h1]
  simp only [h2]

theorem frank_kwOf {t : Tok} {ks : List Str} {r : Option Nat} (h : t.isKwOf ks = true)
    (hr : ∀ k ∈ ks, kwRank k = r) : t.frank = r := by
  obtain ⟨h1, h2⟩ := isKwOf_eq h
  rw [Tok.frank, h1]
  exact hr _ h2

theorem frank_symOf {t : Tok} {ss : List Str} {r : Option Nat} (h : t.isSymOf ss = true)
    (hr : ∀ k ∈ ss, symRank k = r) : t.frank = r := by
  obtain ⟨s, hs, rfl⟩ := isSymOf_eq h
  exact hr s hs

theorem Stop.notKw {p k : Nat} {w : Str} {ts : List Tok} (h : Stop p ts) (hr : kwRank w = some k) (hk : p ≤ k) :
    nextKw w ts = false := by
  cases ts with
  | nil => rfl
  | cons t ts =>
    rw [nextKw, Bool.eq_false_iff]
    intro hc
    have := h k (by rw [frank_kw hc, hr])
    omega

theorem Stop.kwNone {p k : Nat} {w : Str} {ts : List Tok} (h : Stop p ts) (hr : kwRank w = some k) (hk : p ≤ k) :
    kw w ts = none := by
  have := h.notKw hr hk
  cases ts with
  | nil => rfl
  | cons t ts => rw [nextKw] at this; simp [kw, this]

theorem Stop.notSym {p k : Nat} {w : Str} {ts : List Tok} (h : Stop p ts) (hr : symRank w = some k) (hk : p ≤ k) :
    nextSym w ts = false := by
  cases ts with
  | nil => rfl
  | cons t ts =>
    rw [nextSym, Bool.eq_false_iff]
    intro hc
    rw [isSym_eq hc] at h
    have := h k hr
    omega

theorem Stop.symNone {p k : Nat} {w : Str} {ts : List Tok} (h : Stop p ts) (hr : symRank w = some k) (hk : p ≤ k) :
    sym w ts = none := by
  have := h.notSym hr hk
  cases ts with
  | nil => rfl
  | cons t ts => rw [nextSym] at this; simp [sym, this]

theorem Stop.not2Kw {p k : Nat} {w : Str} {ts : List Tok} (h : Stop p ts) (hr : kwRank w = some k) (hk : p ≤ k)
    (g : Tok → Bool) : next2 (Tok.isKw w) g ts = false := by
  have := h.notKw hr hk
  match ts with
  | [] => rfl
  | [_] => rfl
  | t :: u :: ts => rw [nextKw] at this; simp [next2, this]

theorem Stop.not2Sym {p k : Nat} {w : Str} {ts : List Tok} (h : Stop p ts) (hr : symRank w = some k) (hk : p ≤ k)
    (g : Tok → Bool) : next2 (Tok.isSym w) g ts = false := by
  have := h.notSym hr hk
  match ts with
  | [] => rfl
  | [_] => rfl
  | t :: u :: ts => rw [nextSym] at this; simp [next2, this]

theorem Stop.notStr {p : Nat} {ts : List Tok} (h : Stop p ts) (hp : p ≤ 9) : nextStr ts = false := by
  cases ts with
  | nil => rfl
  | cons t ts =>
    rw [nextStr, nextIs, Bool.eq_false_iff]
    intro hc
    simp only [Bool.or_eq_true, beq_iff_eq] at hc
    have := h 9 (by rcases hc with hc | hc <;> rw [Tok.frank, hc])
    omega

theorem Stop.dot {p : Nat} {ts : List Tok} (h : Stop p ts) (hp : p ≤ 8) : nextSym (c% ".") ts = false :=
  h.notSym (k := 8) (by decide +kernel) hp

theorem Stop.star {p : Nat} {ts : List Tok} (h : Stop p ts) (hp : p ≤ 8) : dotStar ts = false := dotStar_of (h.dot hp)

/-! ## The equations of the parser -/

theorem P_lv (p : Nat) (ts : List Tok) : P (.lv p) ts = pLevel P p ts := congrFun (congrFun P_eq (.lv p)) ts
theorem P_loop (p : Nat) (c : CE) (ts : List Tok) : P (.loop p c) ts = pLoop P p c ts :=
  congrFun (congrFun P_eq (.loop p c)) ts
theorem P_exprs (ts : List Tok) : P .exprs ts = pSep (P (.lv 0)) (P .exprs) ts := congrFun (congrFun P_eq .exprs) ts
theorem P_whens (ts : List Tok) : P .whens ts = pWhens P ts := congrFun (congrFun P_eq .whens) ts
theorem P_sorts (ts : List Tok) : P .sorts ts = pSep (pSort P) (P .sorts) ts := congrFun (congrFun P_eq .sorts) ts
theorem P_win (ts : List Tok) : P .win ts = pWin P ts := congrFun (congrFun P_eq .win) ts
theorem P_query (ts : List Tok) : P .query ts = pQuery P ts := congrFun (congrFun P_eq .query) ts
theorem P_qnw (ts : List Tok) : P .qnw ts = pQnw P ts := congrFun (congrFun P_eq .qnw) ts
theorem P_qterm (p : Nat) (ts : List Tok) : P (.qterm p) ts = pQTerm P p ts := congrFun (congrFun P_eq (.qterm p)) ts
theorem P_qloop (p : Nat) (c : CQT) (ts : List Tok) : P (.qloop p c) ts = pQLoop P p c ts :=
  congrFun (congrFun P_eq (.qloop p c)) ts
theorem P_items (ts : List Tok) : P .items ts = pSep (pItem P) (P .items) ts := congrFun (congrFun P_eq .items) ts
theorem P_sets (ts : List Tok) : P .sets ts = pSep (pSet P) (P .sets) ts := congrFun (congrFun P_eq .sets) ts
theorem P_grps (ts : List Tok) : P .grps ts = pSep (pGrp P) (P .grps) ts := congrFun (congrFun P_eq .grps) ts
theorem P_wdefs (ts : List Tok) : P .wdefs ts = pSep (pWinDef P) (P .wdefs) ts := congrFun (congrFun P_eq .wdefs) ts
theorem P_nameds (ts : List Tok) : P .nameds ts = pSep (pNamed P) (P .nameds) ts := congrFun (congrFun P_eq .nameds) ts
theorem P_rel (ts : List Tok) : P .rel ts = (do
    let x ← pSampled P ts
    P (.relLoop x.1) x.2) := congrFun (congrFun P_eq .rel) ts
theorem P_relLoop (c : CR) (ts : List Tok) : P (.relLoop c) ts = pRelLoop P c ts :=
  congrFun (congrFun P_eq (.relLoop c)) ts
theorem P_rels (ts : List Tok) : P .rels ts = pSep (P .rel) (P .rels) ts := congrFun (congrFun P_eq .rels) ts

/-! ## Where the loops stop -/

/-- The levels of the binary operators. -/
def isBin (p : Nat) : Prop := p = 0 ∨ p = 1 ∨ p = 4 ∨ p = 5 ∨ p = 6

theorem binOp_frank {p : Nat} {t : Tok} {f} (hp : isBin p) (h : binOp p t = some f) : t.frank = some p := by
  rcases hp with rfl | rfl | rfl | rfl | rfl <;> simp only [binOp] at h <;> split at h <;> rename_i hc <;>
    first
    | contradiction
    | exact (frank_kw hc).trans (by decide +kernel)
    | (rw [isSym_eq hc]; decide +kernel)
    | exact frank_symOf hc (by decide +kernel)

theorem loop_bin (p : Nat) (hp : isBin p) (c : CE) (ts : List Tok) : P (.loop p c) ts = pBinLoop P p c ts := by
  rw [P_loop]
  rcases hp with rfl | rfl | rfl | rfl | rfl <;> rfl

theorem stop_bin {p : Nat} (hp : isBin p) {c : CE} {ts : List Tok} (h : Stop p ts) :
    P (.loop p c) ts = some (c, ts) := by
  rw [loop_bin p hp]
  cases ts with
  | nil => rfl
  | cons t ts =>
    rw [pBinLoop]
    cases ho : binOp p t with
    | none => rfl
    | some f =>
      have := h p (binOp_frank hp ho)
      omega

theorem stop_pred {c : CE} {ts : List Tok} (h : Stop 3 ts) : P (.loop 3 c) ts = some (c, ts) := by
  rw [P_loop, pLoop]
  cases ts with
  | nil => rfl
  | cons t ts =>
    rw [pPredicate]
    have no : ∀ b : Bool, (b = true → t.frank = some 3) → b = false := by
      intro b hb
      cases b with
      | false => rfl
      | true => exact absurd (h 3 (hb rfl)) (by omega)
    have h1 : t.isCmp = false := no _ fun hc => frank_symOf hc (by decide +kernel)
    have h2 : t.isKw (c% "IS") = false := no _ fun hc => (frank_kw hc).trans (by decide +kernel)
    have h3 : t.isNegatable = false := no _ fun hc => frank_kwOf hc (by decide +kernel)
    have h4 : t.isKw (c% "NOT") = false := no _ fun hc => (frank_kw hc).trans (by decide +kernel)
    simp [h1, h2, h3, h4]

theorem stop_post {c : CE} {ts : List Tok} (h : Stop 8 ts) : P (.loop 8 c) ts = some (c, ts) := by
  rw [P_loop, pLoop, pPostfix, h.notSym (k := 8) (by decide +kernel) (by omega),
    h.not2Sym (k := 8) (by decide +kernel) (by omega)]
  rfl

theorem stop_at {c : CE} {ts : List Tok} (h : Stop 7 ts) : P (.loop 7 c) ts = some (c, ts) := by
  rw [P_loop, pLoop, pAt, h.not2Kw (k := 7) (by decide +kernel) (by omega)]
  rfl

/-! ## From one level to the next lower one -/

theorem lv_operand (p : Nat) (hp : p = 3 ∨ isBin p) (ts : List Tok) : P (.lv p) ts = pOperand P p ts := by
  rw [P_lv]
  rcases hp with rfl | rfl | rfl | rfl | rfl | rfl <;> rfl

theorem lower_step {p : Nat} {c : CE} {ts rest : List Tok} (h : P (.lv (p + 1)) ts = some (c, rest)) (hp : p < 8)
    (hs : Stop p rest) (h2 : p = 2 → nextKw (c% "NOT") ts = false) (h7 : p = 7 → signNext ts = false) :
    P (.lv p) ts = some (c, rest) := by
  have hcase : (p = 3 ∨ isBin p) ∨ p = 2 ∨ p = 7 := by unfold isBin; omega
  rcases hcase with hb | rfl | rfl
  · rw [lv_operand p hb, pOperand, h]
    rcases hb with rfl | hb
    · exact stop_pred hs
    · exact stop_bin hb hs
  · rw [P_lv, pLevel, h2 rfl]; exact h
  · rw [P_lv, pLevel, h7 rfl]
    show pOperand P 7 ts = _
    rw [pOperand, h]
    exact stop_at hs

theorem lowerTo {c : CE} {ts rest : List Tok} : ∀ (d p : Nat), P (.lv (p + d)) ts = some (c, rest) → p + d ≤ 8 →
    Stop p rest → (p ≤ 2 → 2 < p + d → nextKw (c% "NOT") ts = false) →
    (p ≤ 7 → 7 < p + d → signNext ts = false) → P (.lv p) ts = some (c, rest)
  | 0, p, h, _, _, _, _ => h
  | d + 1, p, h, hp, hs, h2, h7 => by
    refine lower_step (lowerTo d (p + 1) (by rw [show p + 1 + d = p + (d + 1) by omega]; exact h) (by omega)
      (hs.mono (by omega)) (fun _ _ => h2 (by omega) (by omega)) (fun _ _ => h7 (by omega) (by omega))) (by omega) hs
      (fun e => h2 (by omega) (by omega)) (fun e => h7 (by omega) (by omega))

/-! ## Expressions that are read back -/

/-- The parser reads the expression back at every level it belongs to, and goes on from there. -/
structure Good (c : CE) : Prop where
  full : ∀ p, p ≤ c.rank → ∀ rest, Stop p rest → P (.lv p) (c.yield ++ rest) = some (c, rest)
  reach : c.isLam = false → ∀ q, isBin q → q ≤ c.rank → ∀ rest, Stop (q + 1) rest →
    P (.lv q) (c.yield ++ rest) = P (.loop q c) rest
  at7 : 7 ≤ c.rank → c.isSign = false → ∀ rest, Stop 8 rest → P (.lv 7) (c.yield ++ rest) = P (.loop 7 c) rest
  prim : 8 ≤ c.rank → ∀ rest, Stop 9 rest → (c.isChain = true → next2 (Tok.isSym (c% ".")) Tok.isIdent rest = false) →
    P (.lv 8) (c.yield ++ rest) = P (.loop 8 c) rest

theorem lvl_le (c : CE) : c.lvl ≤ 8 := by
  cases c <;> first | (rw [arith_lvl]; split <;> omega) | simp [CE.lvl]

theorem full_of {c : CE} (hc : c.Plain) {k : Nat} (hk : k = c.rank)
    (hf : ∀ rest, Stop k rest → P (.lv k) (c.yield ++ rest) = some (c, rest)) :
    ∀ p, p ≤ c.rank → ∀ rest, Stop p rest → P (.lv p) (c.yield ++ rest) = some (c, rest) := by
  intro p hp rest hs
  have h8 := lvl_le c
  have hl := rank_le_lvl c
  have hst := CE.start c hc rest (hs.star (by omega))
  refine lowerTo (k - p) p ?_ (by omega) hs (fun _ _ => hst.notK (by omega)) (fun _ _ => hst.sgn (by omega))
  rw [show p + (k - p) = k by omega]
  exact hf rest (hs.mono (by omega))

theorem reach_of_full {c : CE} {q : Nat} (hq : isBin q) {rest : List Tok}
    (h : P (.lv (q + 1)) (c.yield ++ rest) = some (c, rest)) :
    P (.lv q) (c.yield ++ rest) = P (.loop q c) rest := by
  rw [lv_operand q (.inr hq), pOperand, h]
  rfl

/-- Predicates, NOT and signs. -/
theorem Good.ofFull {c : CE} (hc : c.Plain) {k : Nat} (hk : k = c.rank) (h8 : k < 7 ∨ k = 7 ∧ c.isSign = true) (hb : ¬ isBin k)
    (hf : ∀ rest, Stop k rest → P (.lv k) (c.yield ++ rest) = some (c, rest)) : Good c where
  full := full_of hc hk hf
  reach _ q hq hqr rest hs := by
    have hne : q ≠ k := fun e => hb (e ▸ hq)
    exact reach_of_full hq (full_of hc hk hf (q + 1) (by omega) rest hs)
  at7 h h' := by
    rcases h8 with h8 | ⟨_, h8⟩
    · omega
    · rw [h8] at h'; cases h'
  prim h := by omega

/-- Binary operators. -/
theorem Good.ofReach {c : CE} (hc : c.Plain) {k : Nat} (hk : k = c.rank) (hb : isBin k)
    (hr : ∀ rest, Stop (k + 1) rest → P (.lv k) (c.yield ++ rest) = P (.loop k c) rest) : Good c := by
  have hf : ∀ rest, Stop k rest → P (.lv k) (c.yield ++ rest) = some (c, rest) := fun rest hs => by
    rw [hr rest (hs.mono (by omega)), stop_bin hb hs]
  refine ⟨full_of hc hk hf, fun _ q hq hqr rest hs => ?_, fun h => ?_, fun h => ?_⟩
  · by_cases he : q = k
    · subst he; exact hr rest hs
    · exact reach_of_full hq (full_of hc hk hf (q + 1) (by omega) rest hs)
  · unfold isBin at hb; omega
  · unfold isBin at hb; omega

/-- AT TIME ZONE. -/
theorem Good.ofAt {c : CE} (hc : c.Plain) (hk : c.rank = 7)
    (hr : ∀ rest, Stop 8 rest → P (.lv 7) (c.yield ++ rest) = P (.loop 7 c) rest) : Good c := by
  have hf : ∀ rest, Stop 7 rest → P (.lv 7) (c.yield ++ rest) = some (c, rest) := fun rest hs => by
    rw [hr rest (hs.mono (by omega)), stop_at hs]
  refine ⟨full_of hc hk.symm hf, fun _ q hq hqr rest hs => ?_, fun _ _ => hr, fun h => by omega⟩
  have : q ≠ 7 := by unfold isBin at hq; omega
  exact reach_of_full hq (full_of hc hk.symm hf (q + 1) (by omega) rest hs)

/-- Primary expressions. -/
theorem Good.ofPrim {c : CE} (hc : c.Plain) (hk : c.rank = 8)
    (hr : ∀ rest, Stop 9 rest → (c.isChain = true → next2 (Tok.isSym (c% ".")) Tok.isIdent rest = false) →
      P (.lv 8) (c.yield ++ rest) = P (.loop 8 c) rest) : Good c := by
  have hf : ∀ rest, Stop 8 rest → P (.lv 8) (c.yield ++ rest) = some (c, rest) := fun rest hs => by
    rw [hr rest (hs.mono (by omega)) (fun _ => hs.not2Sym (k := 8) (by decide +kernel) (by omega) _), stop_post hs]
  refine ⟨full_of hc hk.symm hf, fun _ q hq hqr rest hs => ?_, fun _ _ rest hs => ?_, fun _ => hr⟩
  · have : q ≠ 8 := by unfold isBin at hq; omega
    exact reach_of_full hq (full_of hc hk.symm hf (q + 1) (by omega) rest hs)
  · have hst := CE.start c hc rest (hs.star (by omega))
    have := rank_le_lvl c
    rw [P_lv, pLevel, hst.sgn (by omega), if_neg (by simp), pOperand, hf rest hs]
    rfl

theorem P_lv8 (t : Tok) (ts : List Tok) : P (.lv 8) (t :: ts) = (pPrimary P t ts).bind fun e => P (.loop 8 e.1) e.2 := by
  rw [P_lv]; rfl

theorem Good.ofPrimary {c : CE} (hc : c.Plain) (hk : c.rank = 8) {t : Tok} {y : List Tok} (hy : c.yield = t :: y)
    (hr : ∀ rest, Stop 9 rest → pPrimary P t (y ++ rest) = some (c, rest)) : Good c :=
  Good.ofPrim hc hk fun rest hs _ => by
    rw [hy, List.cons_append, P_lv8, hr rest hs]
    rfl

end Treeno
