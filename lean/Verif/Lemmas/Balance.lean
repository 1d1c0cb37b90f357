import Verif.Lemmas.YieldEqs
import Verif.Lemmas.PlainEqs
import Verif.Parser
/-!
# Parentheses are balanced in the tokens of a plain tree
-/
set_option linter.unusedSimpArgs false
set_option linter.unusedVariables false
namespace Treeno
open Spec

/-- Neither an opening nor a closing parenthesis. -/
def NP (t : Tok) : Prop := t.isSym (c% "(") = false ∧ t.isSym (c% ")") = false

/-- Scanning for a closing parenthesis passes over the tokens. -/
def Bal (ts : List Tok) : Prop := ∀ d rest, scanClose d (ts ++ rest) = scanClose d rest

def BalAll (xs : List (List Tok)) : Prop := ∀ x ∈ xs, Bal x

theorem Bal.nil : Bal [] := fun _ _ => rfl

theorem Bal.append {a b : List Tok} (ha : Bal a) (hb : Bal b) : Bal (a ++ b) := fun d rest => by
  rw [List.append_assoc, ha, hb]

theorem scan_np {t : Tok} (h : NP t) (d : Nat) (ts : List Tok) : scanClose d (t :: ts) = scanClose d ts := by
  rw [scanClose.eq_def]
  simp [h.1, h.2]

theorem scan_lpar (d : Nat) (ts : List Tok) : scanClose d (symT (c% "(") :: ts) = scanClose (d + 1) ts := by
  rw [scanClose.eq_def]
  rfl

theorem scan_rpar (d : Nat) (ts : List Tok) : scanClose (d + 1) (symT (c% ")") :: ts) = scanClose d ts := by
  rw [scanClose]
  rfl

theorem scan_rpar0 (ts : List Tok) : scanClose 0 (symT (c% ")") :: ts) = some ts := by
  rw [scanClose]
  rfl

theorem Bal.cons {t : Tok} {a : List Tok} (ht : NP t) (ha : Bal a) : Bal (t :: a) := fun d rest => by
  rw [List.cons_append, scan_np ht, ha]

theorem Bal.parens {a : List Tok} (ha : Bal a) : Bal (inParens a) := fun d rest => by
  simp only [inParens, List.cons_append, List.append_assoc, List.nil_append, scan_lpar, ha (d + 1), scan_rpar]

theorem Bal.flag {b : Bool} {a : List Tok} (ha : Bal a) : Bal (flag b a) := by
  cases b
  · exact Bal.nil
  · exact ha

theorem Bal.sep {s : Tok} (hs : NP s) : ∀ {xs : List (List Tok)}, BalAll xs → Bal (sepBy s xs)
  | [], _ => Bal.nil
  | [x], h => h x (by simp)
  | x :: y :: r, h =>
    (h x (by simp)).append (Bal.cons hs (Bal.sep hs fun z hz => h z (by simp at hz ⊢; exact .inr hz)))

theorem Bal.commas {xs : List (List Tok)} (h : BalAll xs) : Bal (commas xs) := Bal.sep ⟨rfl, rfl⟩ h

theorem Bal.clause {pre : List Tok} {xs : List (List Tok)} (hp : Bal pre) (h : BalAll xs) : Bal (clause pre xs) := by
  unfold Spec.clause
  split
  · exact Bal.nil
  · exact hp.append (Bal.commas h)

theorem Bal.order {xs : List (List Tok)} (h : BalAll xs) : Bal (orderPart xs) :=
  Bal.clause (Bal.cons ⟨rfl, rfl⟩ (Bal.cons ⟨rfl, rfl⟩ Bal.nil)) h

theorem Bal.flatten {xs : List (List Tok)} (h : BalAll xs) : Bal xs.flatten := by
  induction xs with
  | nil => exact Bal.nil
  | cons x xs ih =>
    rw [List.flatten_cons]
    exact (h x (by simp)).append (ih fun z hz => h z (by simp [hz]))

/-- An optional part. -/
def BalOpt (o : Option (List Tok)) : Prop := ∀ x, o = some x → Bal x

theorem Bal.optPart {pre : List Tok} {o : Option (List Tok)} (hp : Bal pre) (h : BalOpt o) : Bal (optPart pre o) := by
  cases o with
  | none => exact Bal.nil
  | some x => exact hp.append (h x rfl)

theorem Bal.optParen {pre : List Tok} {o : Option (List Tok)} (hp : Bal pre) (h : BalOpt o) :
    Bal (optIn (symT (c% "(") :: pre) [symT (c% ")")] o) := by
  cases o with
  | none => exact Bal.nil
  | some x =>
    have := Bal.parens (hp.append (h x rfl))
    simpa [inParens, optIn] using this

theorem BalAll.nil : BalAll [] := by simp [BalAll]
theorem BalAll.cons {x : List Tok} {xs} (h : Bal x) (hs : BalAll xs) : BalAll (x :: xs) := by
  intro z hz
  simp at hz
  rcases hz with rfl | hz
  · exact h
  · exact hs z hz

theorem BalOpt.none : BalOpt none := by simp [BalOpt]
theorem BalOpt.some {x : List Tok} (h : Bal x) : BalOpt (some x) := by
  intro y hy; cases hy; exact h

/-! ## Tokens -/

theorem NP.kind {t : Tok} (h : t.kind ≠ .sym) : NP t := by
  simp [NP, Tok.isSym, h]

theorem NP.ident {t : Tok} (h : Ident t) : NP t := by
  apply NP.kind
  rcases h with h | h | h | h | ⟨h, _⟩ <;> rw [h] <;> simp

theorem NP.word {t : Tok} (h : Word t) : NP t := NP.ident h.1

theorem NP.kwIn {ks : List Str} {t : Tok} (h : KwIn ks t) : NP t := by
  apply NP.kind
  unfold KwIn at h
  rw [List.mem_map] at h
  obtain ⟨k, _, rfl⟩ := h
  simp [kwT]

theorem NP.num {t : Tok} (h : Num t) : NP t := by
  apply NP.kind
  rcases h with h | h | h <;> rw [h] <;> simp

theorem NP.kw (k : Str) : NP (kwT k) := NP.kind (by simp [kwT])

theorem Bal.one {t : Tok} (h : NP t) : Bal [t] := Bal.cons h Bal.nil

theorem Bal.ofNP {ts : List Tok} (h : ∀ t ∈ ts, NP t) : Bal ts := by
  induction ts with
  | nil => exact Bal.nil
  | cons t ts ih => exact Bal.cons (h t (by simp)) (ih fun u hu => h u (by simp [hu]))

theorem Bal.optTok {p : Tok → Prop} (hp : ∀ t, p t → NP t) {o : Option Tok} (h : Opt p o) : Bal o.toList := by
  cases o with
  | none => exact Bal.nil
  | some t => exact Bal.one (hp t (h t rfl))

theorem BalOpt.tok {p : Tok → Prop} (hp : ∀ t, p t → NP t) {o : Option Tok} (h : Opt p o) : BalOpt (o.map fun x => [x]) := by
  cases o with
  | none => exact BalOpt.none
  | some t => exact BalOpt.some (Bal.one (hp t (h t rfl)))

theorem BalAll.words {ns : List Tok} (h : Words ns) : BalAll (ns.map fun t => [t]) := by
  intro x hx
  rw [List.mem_map] at hx
  obtain ⟨t, ht, rfl⟩ := hx
  exact Bal.one (NP.word (h t ht))

theorem Bal.qname {ns : List Tok} (h : Words ns) : Bal (qname ns) := Bal.sep ⟨rfl, rfl⟩ (BalAll.words h)

theorem Bal.columns {ns : List Tok} (h : Words ns) : Bal (columns ns) := by
  unfold Spec.columns
  split
  · exact Bal.nil
  · exact Bal.parens (Bal.commas (BalAll.words h))

theorem Bal.str {s : CStr} (h : PlainStr s) : Bal s.yield := by
  cases s with
  | basic t => exact Bal.one (NP.kind (by rw [show t.kind = _ from h]; simp))
  | unicode t e =>
    obtain ⟨h1, h2⟩ := h
    have ht : NP t := NP.kind (by rw [h1]; simp)
    cases e with
    | none => exact Bal.one ht
    | some e => exact Bal.cons ht (Bal.cons (NP.kw _) (Bal.one (NP.kind (by rw [h2 e rfl]; simp))))

theorem Bal.overflow {o : COverflow} (h : PlainOverflow o) : Bal o.yield := by
  cases o with
  | error => exact Bal.ofNP (by simp [COverflow.yield, NP.kw])
  | truncate f w =>
    rw [COverflow.yield]
    refine Bal.append (Bal.append (Bal.ofNP (by simp [NP.kw])) ?_) (Bal.ofNP (by simp [NP.kw]))
    cases f with
    | none => exact Bal.nil
    | some s => exact Bal.optPart Bal.nil (BalOpt.some (Bal.str (h s rfl)))

theorem NP.count {t : Tok} (h : PlainCount t) : NP t := by
  rcases h with h | rfl
  · exact NP.kind (by simp [h])
  · exact ⟨by decide +kernel, by decide +kernel⟩

theorem Bal.offset {o} (h : PlainOffset o) : Bal (offsetPart o) := by
  cases o with
  | none => exact Bal.nil
  | some p =>
    obtain ⟨h1, h2⟩ := h p rfl
    exact Bal.cons (NP.kw _) (Bal.cons (NP.count h1) (Bal.optTok (fun _ => NP.kwIn) h2))

theorem Bal.limit {o} (h : PlainLimit o) : Bal (CLimit.yield o) := by
  cases o with
  | none => exact Bal.nil
  | limit t =>
    refine Bal.cons (NP.kw _) (Bal.one ?_)
    rcases h with h | rfl
    · exact NP.count h
    · exact NP.kw _
  | fetch f n r t =>
    obtain ⟨h1, h2, h3⟩ := h
    rw [CLimit.yield]
    simp only [List.cons_append, List.nil_append, List.append_assoc]
    refine Bal.cons (NP.kw _) (Bal.cons (NP.kwIn h1) (.append (Bal.optTok (fun _ => NP.count) h2) (Bal.cons (NP.kwIn h3) ?_)))
    cases t with
    | true => exact Bal.cons (NP.kw _) (Bal.one (NP.kw _))
    | false => exact Bal.one (NP.kw _)

theorem Bal.join (t : CJoin) : Bal t.yield := by
  cases t <;> rename_i b <;> cases b <;> exact Bal.ofNP (by simp [CJoin.yield, Spec.flag, NP.kw])

theorem Bal.intToks (i : Int) : Bal (intToks i) := by
  cases i with
  | ofNat n => exact Bal.one (NP.kind (by simp))
  | negSucc n => exact Bal.cons ⟨rfl, rfl⟩ (Bal.one (NP.kind (by simp)))

theorem Bal.par {a : List Tok} (ha : Bal a) : Bal (symTok (c% "(") :: (a ++ [symTok (c% ")")])) := Bal.parens ha

theorem Bal.timeToks (p : Option Int) (tz : Bool) : Bal (timeToks p tz) := by
  unfold Treeno.timeToks
  refine Bal.append ?_ ?_
  · cases p with
    | none => exact Bal.nil
    | some p => exact Bal.par (Bal.intToks p)
  · cases tz
    · exact Bal.nil
    · exact Bal.ofNP (by simp [NP.kind, kwTok])

theorem Bal.sepT {s : Tok} (hs : NP s) : ∀ {xs : List (List Tok)}, BalAll xs → Bal (sepT s xs)
  | [], _ => Bal.nil
  | [x], h => h x (by simp)
  | x :: y :: r, h =>
    (h x (by simp)).append (Bal.cons hs (Bal.sepT hs fun z hz => h z (by simp at hz ⊢; exact .inr hz)))

mutual
theorem bal_ty : ∀ t : Ty, Bal (tyToks t)
  | .simple s => by
    rw [tyToks]
    apply Bal.one
    apply NP.kind
    cases s <;> simp [simpleTok]
  | .decimal p s => by
    rw [tyToks]
    have := Bal.par (Bal.append (Bal.intToks p) (Bal.cons (t := symTok (c% ",")) ⟨rfl, rfl⟩ (Bal.intToks s)))
    rw [List.append_assoc] at this
    exact Bal.cons (NP.kind (by simp)) this
  | .varchar n => by
    cases n with
    | none => exact Bal.one (NP.kind (by simp))
    | some n => exact Bal.cons (NP.kind (by simp)) (Bal.par (Bal.intToks n))
  | .char n => by rw [tyToks]; exact Bal.cons (NP.kind (by simp)) (Bal.par (Bal.intToks n))
  | .time p tz => by rw [tyToks]; exact Bal.cons (NP.kind (by simp [kwTok])) (Bal.timeToks p tz)
  | .timestamp p tz => by rw [tyToks]; exact Bal.cons (NP.kind (by simp [kwTok])) (Bal.timeToks p tz)
  | .interval k => by rw [tyToks]; exact Bal.ofNP (by simp [NP.kind, kwTok])
  | .array t => by rw [tyToks]; exact Bal.cons (NP.kind (by simp [kwTok])) (Bal.par (bal_ty t))
  | .map a b => by
    rw [tyToks]
    have := Bal.par (Bal.append (bal_ty a) (Bal.cons (t := symTok (c% ",")) ⟨rfl, rfl⟩ (bal_ty b)))
    rw [List.append_assoc] at this
    exact Bal.cons (NP.kind (by simp [kwTok])) this
  | .row l => by
    rw [tyToks]; exact Bal.cons (NP.kind (by simp [kwTok])) (Bal.par (Bal.sepT ⟨rfl, rfl⟩ (bal_tys l)))
  | .qdigest t => by rw [tyToks]; exact Bal.cons (NP.kind (by simp)) (Bal.par (bal_ty t))
theorem bal_tys : ∀ l : List Ty, BalAll (tyToksL l)
  | [] => by rw [tyToksL]; exact BalAll.nil
  | t :: r => by rw [tyToksL]; exact BalAll.cons (bal_ty t) (bal_tys r)
end

/-! ## Trees -/

mutual
theorem CE.bal : ∀ c : CE, c.Plain → Bal c.yield
  | .or_ l r, h => by
    rw [CE_Plain_or_] at h; rw [CE_yield_or_]
    exact (CE.bal l h.1).append (Bal.cons (NP.kw _) (CE.bal r h.2.2.1))
  | .and_ l r, h => by
    rw [CE_Plain_and_] at h; rw [CE_yield_and_]
    exact (CE.bal l h.1).append (Bal.cons (NP.kw _) (CE.bal r h.2.2.1))
  | .not_ v, h => by
    rw [CE_Plain_not_] at h; rw [CE_yield_not_]
    exact (Bal.cons (NP.kw _) (CE.bal v h.1))
  | .cmp op l r, h => by
    rw [CE_Plain_cmp] at h; rw [CE_yield_cmp]
    refine (CE.bal l h.2.1).append (Bal.cons ?_ (CE.bal r h.2.2.2.1))
    have h1 := h.1
    simp only [SymIn, List.map, List.mem_cons, List.not_mem_nil, or_false] at h1
    rcases h1 with h1 | h1 | h1 | h1 | h1 | h1 | h1 <;> subst h1 <;> exact ⟨rfl, rfl⟩
  | .between neg v l u, h => by
    rw [CE_Plain_between] at h; rw [CE_yield_between]
    exact (CE.bal v h.1).append (.append (Bal.flag (Bal.one (NP.kw _))) (Bal.cons (NP.kw _)
      ((CE.bal l h.2.2.1).append (Bal.cons (NP.kw _) (CE.bal u h.2.2.2.2.1)))))
  | .inList neg v es, h => by
    rw [CE_Plain_inList] at h; rw [CE_yield_inList]
    exact (CE.bal v h.1).append (.append (Bal.flag (Bal.one (NP.kw _))) (Bal.cons (NP.kw _)
      (Bal.parens (Bal.commas (CE.bals es h.2.2.2)))))
  | .inSub neg v q, h => by
    rw [CE_Plain_inSub] at h; rw [CE_yield_inSub]
    exact (CE.bal v h.1).append (.append (Bal.flag (Bal.one (NP.kw _))) (Bal.cons (NP.kw _)
      (Bal.parens (CQ.bal q h.2.2.1))))
  | .like neg v p esc, h => by
    rw [CE_Plain_like] at h; rw [CE_yield_like]
    exact (CE.bal v h.1).append (.append (Bal.flag (Bal.one (NP.kw _))) (Bal.cons (NP.kw _)
      ((CE.bal p h.2.2.1).append (Bal.optPart (Bal.one (NP.kw _)) (CE.balOpt esc h.2.2.2.2)))))
  | .isNull neg v, h => by
    rw [CE_Plain_isNull] at h; rw [CE_yield_isNull]
    exact (CE.bal v h.1).append (Bal.cons (NP.kw _) (.append (Bal.flag (Bal.one (NP.kw _))) (Bal.one (NP.kw _))))
  | .distinct neg l r, h => by
    rw [CE_Plain_distinct] at h; rw [CE_yield_distinct]
    exact (CE.bal l h.1).append (Bal.cons (NP.kw _) (.append (Bal.flag (Bal.one (NP.kw _))) (Bal.cons (NP.kw _)
      (Bal.cons (NP.kw _) (CE.bal r h.2.2.1)))))
  | .concat l r, h => by
    rw [CE_Plain_concat] at h; rw [CE_yield_concat]
    exact (CE.bal l h.1).append (Bal.cons ⟨rfl, rfl⟩ (CE.bal r h.2.2.1))
  | .arith op l r, h => by
    rw [CE_Plain_arith] at h; rw [CE_yield_arith]
    refine (CE.bal l h.1).append (Bal.cons ?_ (CE.bal r h.2.1))
    have h1 := h.2.2
    simp only [SymIn, List.map, List.mem_cons, List.not_mem_nil, or_false] at h1
    rcases h1 with ⟨h1 | h1, _⟩ | ⟨h1 | h1 | h1, _⟩ <;> subst h1 <;> exact ⟨rfl, rfl⟩
  | .sign op v, h => by
    rw [CE_Plain_sign] at h; rw [CE_yield_sign]
    refine Bal.cons ?_ (CE.bal v h.1)
    have h1 := h.2.2
    rcases h1 with h1 | ⟨h1, _⟩ <;> subst h1 <;> exact ⟨rfl, rfl⟩
  | .null, h => by rw [CE_yield_null]; exact Bal.one (NP.kw _)
  | .typeCtor n s, h => by
    rw [CE_Plain_typeCtor] at h; rw [CE_yield_typeCtor]; exact Bal.cons (NP.word h.1) (Bal.str h.2)
  | .num m t, h => by
    rw [CE_Plain_num] at h; rw [CE_yield_num]
    exact .append (Bal.flag (Bal.one ⟨rfl, rfl⟩)) (Bal.one (NP.num h))
  | .bool t, h => by rw [CE_Plain_bool] at h; rw [CE_yield_bool]; exact Bal.one (NP.kwIn h)
  | .str s, h => by rw [CE_Plain_str] at h; rw [CE_yield_str]; exact Bal.str h
  | .binary t, h => by rw [CE_Plain_binary] at h; rw [CE_yield_binary]; exact Bal.one (NP.kind (by simp [h]))
  | .param, h => by rw [CE_yield_param]; exact Bal.one ⟨rfl, rfl⟩
  | .row es, h => by
    rw [CE_Plain_row] at h; rw [CE_yield_row]; exact Bal.parens (Bal.commas (CE.bals es h.2))
  | .rowKw es, h => by
    rw [CE_Plain_rowKw] at h; rw [CE_yield_rowKw]; exact Bal.cons (NP.kw _) (Bal.parens (Bal.commas (CE.bals es h.2)))
  | .listagg q e sep ov ob, h => by
    rw [CE_Plain_listagg] at h; rw [CE_yield_listagg]
    obtain ⟨h1, h2, h3, h4, _, h6⟩ := h
    refine Bal.cons (NP.kw _) (.append (Bal.parens (.append (.append (.append (Bal.optTok (fun _ => NP.kwIn) h1) (CE.bal e h2)) ?_) ?_)) (Bal.cons (NP.kw _) (Bal.cons (NP.kw _) (Bal.parens (Bal.order (CSort.bals ob h6))))))
    · refine Bal.optPart (Bal.one ⟨rfl, rfl⟩) ?_
      intro x hx
      rw [Option.map_eq_some_iff] at hx
      obtain ⟨s, hs, rfl⟩ := hx
      exact Bal.str (h3 s hs)
    · refine Bal.optPart Bal.nil ?_
      intro x hx
      rw [Option.map_eq_some_iff] at hx
      obtain ⟨s, hs, rfl⟩ := hx
      exact Bal.overflow (h4 s hs)
  | .callStar n l f w, h => by
    rw [CE_Plain_callStar] at h; rw [CE_yield_callStar]
    obtain ⟨_, ht, h2, h3, h4⟩ := h
    refine .append (Bal.qname ht) (.append (Bal.parens (.append ?_ (Bal.one ⟨rfl, rfl⟩))) (.append ?_ ?_))
    · cases l with
      | none => exact Bal.nil
      | some l => exact Bal.cons (NP.word (h2 l rfl)) (Bal.one ⟨rfl, rfl⟩)
    · have := Bal.optParen (Bal.one (NP.kw (c% "WHERE"))) (CE.balOpt f h3)
      cases f with
      | none => exact Bal.nil
      | some f => exact Bal.cons (NP.kw _) this
    · exact Bal.optPart (Bal.one (NP.kw _)) (CWin.balOpt w h4)
  | .call n q args ob f ign w, h => by
    rw [CE_Plain_call] at h; rw [CE_yield_call]
    obtain ⟨_, ht, h2, _, h4, h5, h6, _, h8⟩ := h
    refine .append (Bal.qname ht) (.append (Bal.parens (.append (.append (Bal.optTok (fun _ => NP.kwIn) h2) (Bal.commas (CE.bals args h4))) (Bal.order (CSort.bals ob h5)))) (.append ?_ (.append ?_ ?_)))
    · have := Bal.optParen (Bal.one (NP.kw (c% "WHERE"))) (CE.balOpt f h6)
      cases f with
      | none => exact Bal.nil
      | some f => exact Bal.cons (NP.kw _) this
    · cases ign with
      | none => exact Bal.nil
      | some b => exact Bal.cons (NP.kw _) (Bal.one (NP.kw _))
    · exact Bal.optPart (Bal.one (NP.kw _)) (CWin.balOpt w h8)
  | .lam p ids b, h => by
    rw [CE_Plain_lam] at h; rw [CE_yield_lam]
    obtain ⟨h2, _, h4⟩ := h
    refine .append ?_ (Bal.cons ⟨rfl, rfl⟩ (CE.bal b h4))
    cases p with
    | true => exact Bal.parens (Bal.commas (BalAll.words h2))
    | false => exact Bal.ofNP (fun t ht => NP.word (h2 t ht))
  | .case v ws e, h => by
    rw [CE_Plain_case] at h; rw [CE_yield_case]
    obtain ⟨h1, _, h3, h4⟩ := h
    exact Bal.cons (NP.kw _) (.append (Bal.optPart Bal.nil (CE.balOpt v h1)) (.append (Bal.flatten (CWhen.bals ws h3))
      (.append (Bal.optPart (Bal.one (NP.kw _)) (CE.balOpt e h4)) (Bal.one (NP.kw _)))))
  | .cast tr e ty ts, h => by
    rw [CE_Plain_cast] at h; rw [CE_yield_cast]
    obtain ⟨h1, t, _, rfl, rfl⟩ := h
    exact Bal.cons (NP.kw _) (Bal.parens (.append (CE.bal e h1) (Bal.cons (NP.kw _) (bal_ty t))))
  | .array es, h => by
    rw [CE_Plain_array] at h; rw [CE_yield_array]
    exact Bal.cons (NP.kw _) (Bal.cons ⟨rfl, rfl⟩ (.append (Bal.commas (CE.bals es h)) (Bal.one ⟨rfl, rfl⟩)))
  | .subscript v i, h => by
    rw [CE_Plain_subscript] at h; rw [CE_yield_subscript]
    exact (CE.bal v h.1).append (Bal.cons ⟨rfl, rfl⟩ ((CE.bal i h.2.2.1).append (Bal.one ⟨rfl, rfl⟩)))
  | .col t, h => by rw [CE_Plain_col] at h; rw [CE_yield_col]; exact Bal.one (NP.word h)
  | .deref v n, h => by
    rw [CE_Plain_deref] at h; rw [CE_yield_deref]
    exact (CE.bal v h.1).append (Bal.cons ⟨rfl, rfl⟩ (Bal.one (NP.word h.2.2)))
  | .dateTime t p, h => by
    rw [CE_Plain_dateTime] at h; rw [CE_yield_dateTime]
    rcases h with ⟨rfl, rfl⟩ | ⟨h1, h2⟩
    · exact Bal.one (NP.kw _)
    · refine Bal.cons (NP.kwIn h1) (Bal.optParen Bal.nil ?_)
      intro x hx
      rw [Option.map_eq_some_iff] at hx
      obtain ⟨s, hs, rfl⟩ := hx
      exact Bal.one (NP.kind (by simp [h2 s hs]))
  | .session t, h => by rw [CE_Plain_session] at h; rw [CE_yield_session]; exact Bal.one (NP.kwIn h)
  | .paren e, h => by rw [CE_Plain_paren] at h; rw [CE_yield_paren]; exact Bal.parens (CE.bal e h.1)
  | .sub q, h => by rw [CE_Plain_sub] at h; rw [CE_yield_sub]; exact Bal.parens (CQ.bal q h)
  | .interval sg s f t, h => by
    rw [CE_Plain_interval] at h; rw [CE_yield_interval]
    obtain ⟨h1, h2, h3, h4⟩ := h
    refine Bal.cons (NP.kw _) (.append ?_ (.append (Bal.str h2) (Bal.cons (NP.kwIn h3) (Bal.optPart (Bal.one (NP.kw _)) ?_))))
    · refine Bal.optTok (fun t ht => ?_) h1
      simp only [SymIn, List.map, List.mem_cons, List.not_mem_nil, or_false] at ht
      rcases ht with rfl | rfl <;> exact ⟨rfl, rfl⟩
    · exact BalOpt.tok (fun _ => NP.kwIn) h4
  | .doublePrecision s, h => by
    rw [CE_Plain_doublePrecision] at h; rw [CE_yield_doublePrecision]
    exact Bal.cons (NP.kw _) (Bal.cons (NP.kw _) (Bal.str h))
  | .normalize v f, h => by
    rw [CE_Plain_normalize] at h; rw [CE_yield_normalize]
    exact Bal.cons (NP.kw _) (Bal.parens ((CE.bal v h.1).append (Bal.optPart (Bal.one ⟨rfl, rfl⟩) (BalOpt.tok (fun _ => NP.kwIn) h.2.2))))
  | .quantified op k l q, h => by
    rw [CE_Plain_quantified] at h; rw [CE_yield_quantified]
    obtain ⟨h1, h2, h3, h4, h5, h6⟩ := h
    refine (CE.bal l h3).append (Bal.cons ?_ (Bal.cons (NP.kwIn h2) (Bal.parens (CQ.bal q h5))))
    simp only [SymIn, List.map, List.mem_cons, List.not_mem_nil, or_false] at h1
    rcases h1 with h1 | h1 | h1 | h1 | h1 | h1 | h1 <;> subst h1 <;> exact ⟨rfl, rfl⟩
  | .atZone v z, h => by
    rw [CE_Plain_atZone] at h; rw [CE_yield_atZone]
    exact (CE.bal v h.1).append (Bal.cons (NP.kw _) (Bal.cons (NP.kw _) (Bal.cons (NP.kw _) (CE.bal z h.2.2.2.1))))
  | .exists_ q, h => by
    rw [CE_Plain_exists_] at h; rw [CE_yield_exists_]; exact Bal.cons (NP.kw _) (Bal.parens (CQ.bal q h))
  | .position l r, h => by
    rw [CE_Plain_position] at h; rw [CE_yield_position]
    exact Bal.cons (NP.kw _) (Bal.parens ((CE.bal l h.1).append (Bal.cons (NP.kw _) (CE.bal r h.2.2.1))))
  | .substring v f n, h => by
    rw [CE_Plain_substring] at h; rw [CE_yield_substring]
    exact Bal.cons (NP.kw _) (Bal.parens ((CE.bal v h.1).append (Bal.cons (NP.kw _) ((CE.bal f h.2.2.1).append
      (Bal.optPart (Bal.one (NP.kw _)) (CE.balOpt n h.2.2.2.2))))))
  | .extract t v, h => by
    rw [CE_Plain_extract] at h; rw [CE_yield_extract]
    exact Bal.cons (NP.kw _) (Bal.parens (Bal.cons (NP.word h.1) (Bal.cons (NP.kw _) (CE.bal v h.2.1))))
  | .trimFrom s c v, h => by
    rw [CE_Plain_trimFrom] at h; rw [CE_yield_trimFrom]
    exact Bal.cons (NP.kw _) (Bal.parens ((Bal.optTok (fun _ => NP.kwIn) h.1).append ((Bal.optPart Bal.nil (CE.balOpt c h.2.1)).append
      (Bal.cons (NP.kw _) (CE.bal v h.2.2.2.1)))))
  | .trim v c, h => by
    rw [CE_Plain_trim] at h; rw [CE_yield_trim]
    exact Bal.cons (NP.kw _) (Bal.parens ((CE.bal v h.1).append (Bal.optPart (Bal.one ⟨rfl, rfl⟩) (CE.balOpt c h.2.2.2))))
  | .grouping ns, h => by
    rw [CE_Plain_grouping] at h; rw [CE_yield_grouping]
    refine Bal.cons (NP.kw _) (Bal.parens (Bal.commas ?_))
    intro x hx
    rw [List.mem_map] at hx
    obtain ⟨n, hn, rfl⟩ := hx
    exact Bal.qname (h n hn).2
theorem CE.bals : ∀ es : List CE, CE.Plains es → BalAll (CE.yields es)
  | [], _ => by rw [CE_yields_nil]; exact BalAll.nil
  | e :: es, h => by
    rw [CE_Plains_cons] at h; rw [CE_yields_cons]; exact BalAll.cons (CE.bal e h.1) (CE.bals es h.2)
theorem CE.balOpt {p : Nat} : ∀ o : Option CE, CE.PlainOpt p o → BalOpt (CE.yieldOpt o)
  | none, _ => by rw [CE_yieldOpt_none]; exact BalOpt.none
  | some e, h => by rw [CE_PlainOpt_some] at h; rw [CE_yieldOpt_some]; exact BalOpt.some (CE.bal e h.1)
theorem CWhen.bals : ∀ ws : List CWhen, CWhen.Plains ws → BalAll (CWhen.yields ws)
  | [], _ => by rw [CWhen_yields_nil]; exact BalAll.nil
  | .mk c v :: ws, h => by
    rw [CWhen_Plains_cons] at h; rw [CWhen_yields_cons]
    exact BalAll.cons (Bal.cons (NP.kw _) (.append (CE.bal c h.1) (Bal.cons (NP.kw _) (CE.bal v h.2.1)))) (CWhen.bals ws h.2.2)
theorem CSort.bals : ∀ ws : List CSort, CSort.Plains ws → BalAll (CSort.yields ws)
  | [], _ => by rw [CSort_yields_nil]; exact BalAll.nil
  | .mk e o n :: ws, h => by
    rw [CSort_Plains_cons] at h; rw [CSort_yields_cons]
    obtain ⟨h1, h2, h3, h4⟩ := h
    refine BalAll.cons (.append (CE.bal e h1) (.append (Bal.optTok (fun _ => NP.kwIn) h2) (Bal.optPart (Bal.one (NP.kw _)) ?_))) (CSort.bals ws h4)
    intro x hx
    rw [Option.map_eq_some_iff] at hx
    obtain ⟨s, hs, rfl⟩ := hx
    exact Bal.one (NP.kwIn (h3 s hs))
theorem CBound.bal : ∀ b : CBound, b.Plain → Bal b.yield
  | .unbounded t, h => by
    rw [CBound_Plain_unbounded] at h; rw [CBound_yield_unbounded]; exact Bal.cons (NP.kw _) (Bal.one (NP.kwIn h))
  | .current, _ => by rw [CBound_yield_current]; exact Bal.cons (NP.kw _) (Bal.one (NP.kw _))
  | .bounded e t, h => by
    rw [CBound_Plain_bounded] at h; rw [CBound_yield_bounded]; exact (CE.bal e h.1).append (Bal.one (NP.kwIn h.2))
theorem CFrame.bal : ∀ f : CFrame, f.Plain → Bal f.yield
  | .none, _ => by rw [CFrame_yield_none]; exact Bal.nil
  | .from_ t b, h => by
    rw [CFrame_Plain_from_] at h; rw [CFrame_yield_from_]; exact Bal.cons (NP.kwIn h.1) (CBound.bal b h.2)
  | .between t a b, h => by
    rw [CFrame_Plain_between] at h; rw [CFrame_yield_between]
    exact Bal.cons (NP.kwIn h.1) (Bal.cons (NP.kw _) ((CBound.bal a h.2.1).append (Bal.cons (NP.kw _) (CBound.bal b h.2.2))))
theorem CWin.bal : ∀ w : CWin, w.Plain → Bal w.yield
  | .ref t, h => by rw [CWin_Plain_ref] at h; rw [CWin_yield_ref]; exact Bal.one (NP.word h)
  | .spec p ps ob f, h => by
    rw [CWin_Plain_spec] at h; rw [CWin_yield_spec]
    obtain ⟨h1, h2, h3, h4⟩ := h
    exact Bal.parens (.append (Bal.optTok (fun _ => NP.word) h1) (.append (Bal.clause (Bal.cons (NP.kw _) (Bal.one (NP.kw _))) (CE.bals ps h2))
      (.append (Bal.order (CSort.bals ob h3)) (CFrame.bal f h4))))
theorem CWin.balOpt : ∀ o : Option CWin, CWin.PlainOpt o → BalOpt (CWin.yieldOpt o)
  | none, _ => by rw [CWin_yieldOpt_none]; exact BalOpt.none
  | some e, h => by rw [CWin_PlainOpt_some] at h; rw [CWin_yieldOpt_some]; exact BalOpt.some (CWin.bal e h)
theorem CSet.bal : ∀ s : CSet, s.Plain → Bal s.yield
  | .paren es, h => by
    rw [CSet_Plain_paren] at h; rw [CSet_yield_paren]; exact Bal.parens (Bal.commas (CE.bals es h))
  | .expr e, h => by rw [CSet_Plain_expr] at h; rw [CSet_yield_expr]; exact CE.bal e h.1
theorem CSet.bals : ∀ es : List CSet, CSet.Plains es → BalAll (CSet.yields es)
  | [], _ => by rw [CSet_yields_nil]; exact BalAll.nil
  | e :: es, h => by
    rw [CSet_Plains_cons] at h; rw [CSet_yields_cons]; exact BalAll.cons (CSet.bal e h.1) (CSet.bals es h.2)
theorem CGrp.bal : ∀ s : CGrp, s.Plain → Bal s.yield
  | .single s, h => by rw [CGrp_Plain_single] at h; rw [CGrp_yield_single]; exact CSet.bal s h
  | .rollup es, h => by
    rw [CGrp_Plain_rollup] at h; rw [CGrp_yield_rollup]
    exact Bal.cons (NP.kw _) (Bal.parens (Bal.commas (CE.bals es h)))
  | .cube es, h => by
    rw [CGrp_Plain_cube] at h; rw [CGrp_yield_cube]
    exact Bal.cons (NP.kw _) (Bal.parens (Bal.commas (CE.bals es h)))
  | .sets ss, h => by
    rw [CGrp_Plain_sets] at h; rw [CGrp_yield_sets]
    exact Bal.cons (NP.kw _) (Bal.cons (NP.kw _) (Bal.parens (Bal.commas (CSet.bals ss h.2))))
theorem CGrp.bals : ∀ es : List CGrp, CGrp.Plains es → BalAll (CGrp.yields es)
  | [], _ => by rw [CGrp_yields_nil]; exact BalAll.nil
  | e :: es, h => by
    rw [CGrp_Plains_cons] at h; rw [CGrp_yields_cons]; exact BalAll.cons (CGrp.bal e h.1) (CGrp.bals es h.2)
theorem CItem.bal : ∀ s : CItem, s.Plain → Bal s.yield
  | .expr e b a, h => by
    rw [CItem_Plain_expr] at h; rw [CItem_yield_expr]
    exact (CE.bal e h.1).append (.append (Bal.flag (Bal.one (NP.kw _))) (Bal.optTok (fun _ => NP.word) h.2.1))
  | .allOf e cols, h => by
    rw [CItem_Plain_allOf] at h; rw [CItem_yield_allOf]
    exact (CE.bal e h.1).append (Bal.cons ⟨rfl, rfl⟩ (Bal.cons ⟨rfl, rfl⟩ (.append (Bal.flag (Bal.one (NP.kw _))) (Bal.columns h.2.2))))
  | .all, _ => by rw [CItem_yield_all]; exact Bal.one ⟨rfl, rfl⟩
theorem CItem.bals : ∀ es : List CItem, CItem.Plains es → BalAll (CItem.yields es)
  | [], _ => by rw [CItem_yields_nil]; exact BalAll.nil
  | e :: es, h => by
    rw [CItem_Plains_cons] at h; rw [CItem_yields_cons]; exact BalAll.cons (CItem.bal e h.1) (CItem.bals es h.2)
theorem CWinDef.bals : ∀ es : List CWinDef, CWinDef.Plains es → BalAll (CWinDef.yields es)
  | [], _ => by rw [CWinDef_yields_nil]; exact BalAll.nil
  | .mk n w :: es, h => by
    rw [CWinDef_Plains_cons] at h; rw [CWinDef_yields_cons]
    exact BalAll.cons (Bal.cons (NP.word h.1) (Bal.cons (NP.kw _) (CWin.bal w h.2.2.1))) (CWinDef.bals es h.2.2.2)
theorem CQ.bal : ∀ q : CQ, q.Plain → Bal q.yield
  | .mk rc w b, h => by
    rw [CQ_Plain_mk] at h; rw [CQ_yield_mk]
    exact .append (Bal.clause (Bal.cons (NP.kw _) (Bal.flag (Bal.one (NP.kw _)))) (CNamed.bals w h.2.1)) (CQN.bal b h.2.2)
theorem CNamed.bals : ∀ es : List CNamed, CNamed.Plains es → BalAll (CNamed.yields es)
  | [], _ => by rw [CNamed_yields_nil]; exact BalAll.nil
  | .mk n cols q :: es, h => by
    rw [CNamed_Plains_cons] at h; rw [CNamed_yields_cons]
    exact BalAll.cons (Bal.cons (NP.word h.1) (.append (Bal.columns h.2.1) (Bal.cons (NP.kw _) (Bal.parens (CQ.bal q h.2.2.1)))))
      (CNamed.bals es h.2.2.2)
theorem CQN.bal : ∀ q : CQN, q.Plain → Bal q.yield
  | .mk t ob off lim, h => by
    rw [CQN_Plain_mk] at h; rw [CQN_yield_mk]
    exact .append (CQT.bal t h.1) (.append (Bal.order (CSort.bals ob h.2.1)) (.append (Bal.offset h.2.2.1) (Bal.limit h.2.2.2)))
theorem CQT.bal : ∀ q : CQT, q.Plain → Bal q.yield
  | .set op q l r, h => by
    rw [CQT_Plain_set] at h; rw [CQT_yield_set]
    exact .append (CQT.bal l h.2.2.1) (Bal.cons (NP.kwIn h.1) (.append (Bal.optTok (fun _ => NP.kwIn) h.2.1) (CQT.bal r h.2.2.2.1)))
  | .spec q items fr wh gq gs hv ws, h => by
    rw [CQT_Plain_spec] at h; rw [CQT_yield_spec]
    obtain ⟨h1, _, h3, h4, h5, h6, _, h8, h9, h10⟩ := h
    exact Bal.cons (NP.kw _) (.append (Bal.optTok (fun _ => NP.kwIn) h1) (.append (Bal.commas (CItem.bals items h3))
      (.append (Bal.clause (Bal.one (NP.kw _)) (CR.bals fr h4)) (.append (Bal.optPart (Bal.one (NP.kw _)) (CE.balOpt wh h5))
      (.append (Bal.clause (Bal.cons (NP.kw _) (Bal.cons (NP.kw _) (Bal.optTok (fun _ => NP.kwIn) h6))) (CGrp.bals gs h8))
      (.append (Bal.optPart (Bal.one (NP.kw _)) (CE.balOpt hv h9)) (Bal.clause (Bal.one (NP.kw _)) (CWinDef.bals ws h10))))))))
  | .table n, h => by
    rw [CQT_Plain_table] at h; rw [CQT_yield_table]; exact Bal.cons (NP.kw _) (Bal.qname h.2)
  | .values es, h => by
    rw [CQT_Plain_values] at h; rw [CQT_yield_values]; exact Bal.cons (NP.kw _) (Bal.commas (CE.bals es h.2))
  | .sub q, h => by rw [CQT_Plain_sub] at h; rw [CQT_yield_sub]; exact Bal.parens (CQN.bal q h)
theorem CR.bal : ∀ r : CR, r.Plain → Bal r.yield
  | .cross l r, h => by
    rw [CR_Plain_cross] at h; rw [CR_yield_cross]
    exact (CR.bal l h.1).append (Bal.cons (NP.kw _) (Bal.cons (NP.kw _) (CR.bal r h.2.1)))
  | .join l t r c, h => by
    rw [CR_Plain_join] at h; rw [CR_yield_join]
    exact (CR.bal l h.1).append ((Bal.join t).append ((CR.bal r h.2.1).append (CCrit.bal c h.2.2)))
  | .natural l t r, h => by
    rw [CR_Plain_natural] at h; rw [CR_yield_natural]
    exact (CR.bal l h.1).append (Bal.cons (NP.kw _) ((Bal.join t).append (CR.bal r h.2.1)))
  | .sample r t e, h => by
    rw [CR_Plain_sample] at h; rw [CR_yield_sample]
    exact (CR.bal r h.1).append (Bal.cons (NP.kw _) (Bal.cons (NP.kwIn h.2.2.1) (Bal.parens (CE.bal e h.2.2.2))))
  | .alias r b n cols, h => by
    rw [CR_Plain_alias] at h; rw [CR_yield_alias]
    exact (CR.bal r h.1).append (.append (.append (Bal.flag (Bal.one (NP.kw _))) (Bal.one (NP.word h.2.2.1))) (Bal.columns h.2.2.2))
  | .table n, h => by rw [CR_Plain_table] at h; rw [CR_yield_table]; exact Bal.qname h.2
  | .sub q, h => by rw [CR_Plain_sub] at h; rw [CR_yield_sub]; exact Bal.parens (CQ.bal q h)
  | .unnest es o, h => by
    rw [CR_Plain_unnest] at h; rw [CR_yield_unnest]
    exact Bal.cons (NP.kw _) (.append (Bal.parens (Bal.commas (CE.bals es h.2))) (Bal.flag (Bal.cons (NP.kw _) (Bal.one (NP.kw _)))))
  | .lateral q, h => by
    rw [CR_Plain_lateral] at h; rw [CR_yield_lateral]; exact Bal.cons (NP.kw _) (Bal.parens (CQ.bal q h))
  | .paren r, h => by rw [CR_Plain_paren] at h; rw [CR_yield_paren]; exact Bal.parens (CR.bal r h.1)
theorem CR.bals : ∀ es : List CR, CR.Plains es → BalAll (CR.yields es)
  | [], _ => by rw [CR_yields_nil]; exact BalAll.nil
  | e :: es, h => by
    rw [CR_Plains_cons] at h; rw [CR_yields_cons]; exact BalAll.cons (CR.bal e h.1) (CR.bals es h.2)
theorem CCrit.bal : ∀ c : CCrit, c.Plain → Bal c.yield
  | .on e, h => by rw [CCrit_Plain_on] at h; rw [CCrit_yield_on]; exact Bal.cons (NP.kw _) (CE.bal e h)
  | .using cols, h => by
    rw [CCrit_Plain_using] at h; rw [CCrit_yield_using]; exact Bal.cons (NP.kw _) (Bal.columns h.2)
end

end Treeno
