import Verif.Lemmas.Scan
import Verif.Lemmas.TypeParse
import Verif.Lemmas.Stops
/-!
# A closing parenthesis after what the parser reads changes nothing

Whatever the parser reads from some tokens, it reads from the same tokens followed by `)` and anything.
-/
set_option linter.unusedSimpArgs false
set_option linter.unusedVariables false
namespace Treeno
open Spec Lean.Order

/-- A closing parenthesis and what comes after it. -/
def cl (Y : List Tok) : List Tok := symT (c% ")") :: Y

/-- What is read from the tokens is read from them with `cl Y` after them. -/
def E {α} (Y : List Tok) (a b : Option (α × List Tok)) : Prop :=
  ∀ o rest, a = some (o, rest) → b = some (o, rest ++ cl Y)

def E0 (Y : List Tok) (a b : Option (List Tok)) : Prop := ∀ rest, a = some rest → b = some (rest ++ cl Y)

section
variable {α β : Type} {Y : List Tok}

theorem E.bind {a b : Option (α × List Tok)} {f g : α × List Tok → Option (β × List Tok)} (h : E Y a b)
    (k : ∀ o rest, a = some (o, rest) → E Y (f (o, rest)) (g (o, rest ++ cl Y))) : E Y (a >>= f) (b >>= g) := by
  intro o rest e
  cases ha : a with
  | none => rw [ha] at e; cases e
  | some x =>
    obtain ⟨p, q⟩ := x
    rw [ha] at e
    rw [h p q ha]
    exact k p q ha o rest e

theorem E0.bind {a b : Option (List Tok)} {f g : List Tok → Option (β × List Tok)} (h : E0 Y a b)
    (k : ∀ rest, a = some rest → E Y (f rest) (g (rest ++ cl Y))) : E Y (a >>= f) (b >>= g) := by
  intro o rest e
  cases ha : a with
  | none => rw [ha] at e; cases e
  | some x =>
    rw [ha] at e
    rw [h x ha]
    exact k x ha o rest e

theorem E.ret {o : α} {ts : List Tok} : E Y (some (o, ts)) (some (o, ts ++ cl Y)) := by
  intro o rest e
  cases e
  rfl

theorem E.no {b : Option (α × List Tok)} : E Y none b := by
  intro o rest e
  cases e

theorem E.ite {c c' : Bool} {a b a' b' : Option (α × List Tok)} (hc : c' = c) (t : c = true → E Y a b)
    (f : c = false → E Y a' b') : E Y (if c then a else a') (if c' then b else b') := by
  subst hc
  cases c' with
  | true => exact t rfl
  | false => exact f rfl

/-- The test may use that the parser succeeds. -/
theorem E.iteS {c c' : Bool} {a b a' b' : Option (α × List Tok)}
    (hc : ∀ x, (if c then a else a') = some x → c' = c) (t : c = true → E Y a b)
    (f : c = false → E Y a' b') : E Y (if c then a else a') (if c' then b else b') := by
  intro o rest e
  exact E.ite (hc _ e) t f o rest e

theorem E.weaken {a b : Option (α × List Tok)} (h : ∀ x, a = some x → E Y a b) : E Y a b := by
  intro o rest e
  exact h _ e o rest e
end

/-! ## Tokens -/

variable {Y : List Tok}

theorem kw_app (k : Str) (ts : List Tok) : kw k (ts ++ cl Y) = (kw k ts).map (· ++ cl Y) := by
  cases ts with
  | nil => rfl
  | cons t ts => rw [List.cons_append, kw, kw]; split <;> rfl

theorem sym_app {s : Str} (h : s ≠ c% ")") (ts : List Tok) : sym s (ts ++ cl Y) = (sym s ts).map (· ++ cl Y) := by
  cases ts with
  | nil =>
    show (if (symT (c% ")")).isSym s = true then _ else none) = none
    rw [if_neg]
    simp [Tok.isSym, symT, Ne.symm h]
  | cons t ts => rw [List.cons_append, sym, sym]; split <;> rfl

theorem kw_e (k : Str) (ts : List Tok) : E0 Y (kw k ts) (kw k (ts ++ cl Y)) := by
  intro rest h
  rw [kw_app, h]
  rfl

theorem sym_e (s : Str) (ts : List Tok) : E0 Y (sym s ts) (sym s (ts ++ cl Y)) := by
  intro rest h
  cases ts with
  | nil => cases h
  | cons t ts =>
    rw [sym] at h
    rw [List.cons_append, sym]
    split at h
    · rename_i ht; rw [if_pos ht]; cases h; rfl
    · cases h

theorem sym_cons (s : Str) {ts : List Tok} (h : ts ≠ []) : sym s (ts ++ cl Y) = (sym s ts).map (· ++ cl Y) := by
  cases ts with
  | nil => exact absurd rfl h
  | cons t ts => rw [List.cons_append, sym, sym]; split <;> rfl

theorem pIdent_e (ts : List Tok) : E Y (pIdent ts) (pIdent (ts ++ cl Y)) := by
  cases ts with
  | nil => exact E.no
  | cons t ts => rw [List.cons_append, pIdent, pIdent]; split <;> first | exact E.ret | exact E.no

theorem pKind_e (k : Kind) (ts : List Tok) : E Y (pKind k ts) (pKind k (ts ++ cl Y)) := by
  cases ts with
  | nil => exact E.no
  | cons t ts => rw [List.cons_append, pKind, pKind]; split <;> first | exact E.ret | exact E.no

theorem pIvField_e (ts : List Tok) : E Y (pIvField ts) (pIvField (ts ++ cl Y)) := by
  cases ts with
  | nil => exact E.no
  | cons t ts => rw [List.cons_append, pIvField, pIvField]; split <;> first | exact E.ret | exact E.no

theorem tokIf_e (f : Tok → Bool) (ts : List Tok) : E Y (tokIf f ts) (tokIf f (ts ++ cl Y)) := by
  cases ts with
  | nil => exact E.no
  | cons t ts => rw [List.cons_append, tokIf, tokIf]; split <;> first | exact E.ret | exact E.no

theorem optTok_app {f : Tok → Bool} (h : f (symT (c% ")")) = false) (ts : List Tok) :
    optTok f (ts ++ cl Y) = ((optTok f ts).1, (optTok f ts).2 ++ cl Y) := by
  cases ts with
  | nil => show optTok f (symT (c% ")") :: Y) = _; rw [optTok, h]; rfl
  | cons t ts => rw [List.cons_append, optTok, optTok]; split <;> rfl

theorem optKw_app (k : Str) (ts : List Tok) : optKw k (ts ++ cl Y) = ((optKw k ts).1, (optKw k ts).2 ++ cl Y) := by
  cases ts with
  | nil => rfl
  | cons t ts => rw [List.cons_append, optKw, optKw]; split <;> rfl

theorem nextIs_app {f : Tok → Bool} (h : f (symT (c% ")")) = false) (ts : List Tok) : nextIs f (ts ++ cl Y) = nextIs f ts := by
  cases ts with
  | nil => exact h
  | cons t ts => rfl

theorem nextIs_cons {f : Tok → Bool} {ts : List Tok} (h : ts ≠ []) : nextIs f (ts ++ cl Y) = nextIs f ts := by
  cases ts with
  | nil => exact absurd rfl h
  | cons t ts => rfl

theorem nextKw_app (k : Str) (ts : List Tok) : nextKw k (ts ++ cl Y) = nextKw k ts := by
  cases ts with
  | nil => rfl
  | cons t ts => rfl

theorem nextSym_app {s : Str} (h : s ≠ c% ")") (ts : List Tok) : nextSym s (ts ++ cl Y) = nextSym s ts := by
  cases ts with
  | nil =>
    show (symT (c% ")")).isSym s = false
    simp [Tok.isSym, symT, Ne.symm h]
  | cons t ts => rfl

theorem nextSym_cons (s : Str) {ts : List Tok} (h : ts ≠ []) : nextSym s (ts ++ cl Y) = nextSym s ts := by
  cases ts with
  | nil => exact absurd rfl h
  | cons t ts => rfl

theorem next2_app {f g : Tok → Bool} (hf : f (symT (c% ")")) = false) (hg : g (symT (c% ")")) = false) (ts : List Tok) :
    next2 f g (ts ++ cl Y) = next2 f g ts := by
  match ts with
  | [] =>
    show next2 f g (symT (c% ")") :: Y) = false
    cases Y with
    | nil => rfl
    | cons u Y => simp [next2, hf]
  | [t] => show (f t && g (symT (c% ")"))) = false; simp [hg]
  | t :: u :: ts => rfl

theorem drop1_sym {s : Str} {ts : List Tok} (h : nextSym s ts = true) : (ts ++ cl Y).drop 1 = ts.drop 1 ++ cl Y := by
  cases ts with
  | nil => cases h
  | cons t ts => rfl

theorem drop1_kw {s : Str} {ts : List Tok} (h : nextKw s ts = true) : (ts ++ cl Y).drop 1 = ts.drop 1 ++ cl Y := by
  cases ts with
  | nil => cases h
  | cons t ts => rfl

theorem drop1_next2 {f g : Tok → Bool} {ts : List Tok} (h : next2 f g ts = true) :
    (ts ++ cl Y).drop 1 = ts.drop 1 ++ cl Y := by
  match ts, h with
  | t :: u :: ts, _ => rfl

theorem drop2_next2 {f g : Tok → Bool} {ts : List Tok} (h : next2 f g ts = true) :
    (ts ++ cl Y).drop 2 = ts.drop 2 ++ cl Y := by
  match ts, h with
  | t :: u :: ts, _ => rfl

theorem pIdents_app : ∀ ts : List Tok, pIdents (ts ++ cl Y) = (pIdents ts).map fun p => (p.1, p.2 ++ cl Y)
  | [] => by
    show pIdents (symT (c% ")") :: Y) = none
    cases Y with
    | nil => rfl
    | cons u Y => rfl
  | [t] => by
    show pIdents (t :: symT (c% ")") :: Y) = _
    rw [pIdents, pIdents]
    split <;> rfl
  | t :: u :: ts => by
    show pIdents (t :: u :: (ts ++ cl Y)) = _
    rw [pIdents, pIdents, pIdents_app ts]
    split
    · split
      · cases pIdents ts <;> rfl
      · rfl
    · rfl

theorem pQName_app : ∀ ts : List Tok, pQName (ts ++ cl Y) = (pQName ts).map fun p => (p.1, p.2 ++ cl Y)
  | [] => by
    show pQName (symT (c% ")") :: Y) = none
    cases Y with
    | nil => rfl
    | cons u Y => rfl
  | [t] => by
    show pQName (t :: symT (c% ")") :: Y) = _
    rw [pQName, pQName]
    split <;> rfl
  | t :: u :: ts => by
    show pQName (t :: u :: (ts ++ cl Y)) = _
    rw [pQName, pQName, pQName_app ts, nextIs_app rfl]
    split
    · split
      · cases pQName ts <;> rfl
      · rfl
    · rfl

theorem pQNames_app : ∀ ts : List Tok, pQNames (ts ++ cl Y) = (pQNames ts).map fun p => (p.1, p.2 ++ cl Y)
  | [] => by
    show pQNames (symT (c% ")") :: Y) = none
    cases Y with
    | nil => rfl
    | cons u Y => rfl
  | [t] => by
    show pQNames (t :: symT (c% ")") :: Y) = _
    rw [pQNames, pQNames]
    split <;> rfl
  | t :: u :: ts => by
    show pQNames (t :: u :: (ts ++ cl Y)) = _
    rw [pQNames, pQNames, pQNames_app ts]
    split
    · split
      · cases pQNames ts <;> rfl
      · split
        · cases pQNames ts <;> rfl
        · rfl
    · rfl

theorem E.ofMap {α} {a b : Option (α × List Tok)} (h : b = a.map fun p => (p.1, p.2 ++ cl Y)) : E Y a b := by
  intro o rest e
  rw [h, e]
  rfl

theorem pIdents_e (ts : List Tok) : E Y (pIdents ts) (pIdents (ts ++ cl Y)) := .ofMap (pIdents_app ts)
theorem pQName_e (ts : List Tok) : E Y (pQName ts) (pQName (ts ++ cl Y)) := .ofMap (pQName_app ts)
theorem pQNames_e (ts : List Tok) : E Y (pQNames ts) (pQNames (ts ++ cl Y)) := .ofMap (pQNames_app ts)

theorem pColumns_e (ts : List Tok) : E Y (pColumns ts) (pColumns (ts ++ cl Y)) := by
  unfold pColumns
  exact (sym_e _ _).bind fun _ _ => (pIdents_e _).bind fun _ _ _ => (sym_e _ _).bind fun _ _ => E.ret

theorem optColumns_e (ts : List Tok) : E Y (optColumns ts) (optColumns (ts ++ cl Y)) := by
  unfold optColumns
  exact E.ite (nextSym_app (by decide) _) (fun _ => pColumns_e _) fun _ => E.ret

theorem pString_e (ts : List Tok) : E Y (pString ts) (pString (ts ++ cl Y)) := by
  cases ts with
  | nil => exact E.no
  | cons t ts =>
    rw [List.cons_append, pString, pString]
    refine E.ite rfl (fun _ => E.ret) fun _ => E.ite rfl (fun _ => ?_) fun _ => E.no
    refine E.ite (next2_app rfl rfl _) (fun h => ?_) fun _ => E.ret
    match ts, h with
    | a :: b :: ts, _ => exact E.ret

theorem nextStr_app (ts : List Tok) : nextStr (ts ++ cl Y) = nextStr ts := nextIs_app rfl ts

theorem optString_e (ts : List Tok) : E Y (optString ts) (optString (ts ++ cl Y)) := by
  unfold optString
  exact E.ite (nextStr_app _) (fun _ => (pString_e _).bind fun _ _ _ => E.ret) fun _ => E.ret

theorem pIvTo_e (ts : List Tok) : E Y (pIvTo ts) (pIvTo (ts ++ cl Y)) := by
  unfold pIvTo
  rw [kw_app]
  cases kw (c% "TO") ts with
  | none => exact E.ret
  | some u => exact (pIvField_e _).bind fun _ _ _ => E.ret

theorem pInterval_e (ts : List Tok) : E Y (pInterval ts) (pInterval (ts ++ cl Y)) := by
  unfold pInterval
  rw [optTok_app rfl]
  exact (pString_e _).bind fun _ _ _ => (pIvField_e _).bind fun _ _ _ => (pIvTo_e _).bind fun _ _ _ => E.ret

/-! ## Types -/

/-- The type parser with the same fuel. -/
def TExt (Y : List Tok) (r : TRec) : Prop := ∀ nt ts, E Y (r nt ts) (r nt (ts ++ cl Y))

section
variable {r : TRec}

theorem pTypeParam_e (hr : TExt Y r) (ts : List Tok) : E Y (pTypeParam r ts) (pTypeParam r (ts ++ cl Y)) := by
  unfold pTypeParam
  cases h : pKind .int ts with
  | some x =>
    obtain ⟨o, rest⟩ := x
    rw [pKind_e .int ts o rest h]
    exact E.ret
  | none =>
    have : pKind .int (ts ++ cl Y) = none := by
      cases ts with
      | nil => rfl
      | cons t ts =>
        rw [pKind] at h
        rw [List.cons_append, pKind]
        split at h
        · cases h
        · rename_i hc; rw [if_neg hc]
    rw [this]
    exact (hr .ty ts).bind fun _ _ _ => E.ret

theorem pPrecision_e (hr : TExt Y r) (ts : List Tok) : E Y (pPrecision r ts) (pPrecision r (ts ++ cl Y)) := by
  unfold pPrecision
  rw [sym_app (by decide)]
  cases sym (c% "(") ts with
  | none => exact E.ret
  | some u => exact (pTypeParam_e hr _).bind fun _ _ _ => (sym_e _ _).bind fun _ _ => E.ret

theorem pZone_e (ts : List Tok) : E Y (pZone ts) (pZone (ts ++ cl Y)) := by
  unfold pZone
  rw [kw_app]
  cases kw (c% "WITH") ts with
  | some u => exact (kw_e _ _).bind fun _ _ => (kw_e _ _).bind fun _ _ => E.ret
  | none =>
    simp only [Option.map_none]
    rw [kw_app]
    cases kw (c% "WITHOUT") ts with
    | some u => exact (kw_e _ _).bind fun _ _ => (kw_e _ _).bind fun _ _ => E.ret
    | none => exact E.ret

theorem secondInt_app {ts : List Tok} (h : nextSym (c% "(") ts = true) : secondInt (ts ++ cl Y) = secondInt ts := by
  match ts, h with
  | [t], _ => rfl
  | t :: u :: ts, _ => rfl

theorem nextIvField_app (ts : List Tok) : nextIvField (ts ++ cl Y) = nextIvField ts := by
  cases ts <;> rfl

theorem pTypeBase_e (hr : TExt Y r) (ts : List Tok) : E Y (pTypeBase r ts) (pTypeBase r (ts ++ cl Y)) := by
  cases ts with
  | nil => exact E.no
  | cons t ts =>
    rw [List.cons_append, pTypeBase, pTypeBase]
    refine E.ite ?_ (fun h => ?_) fun _ => E.ite ?_ (fun h => ?_) fun _ => E.ite rfl (fun h => ?_) fun _ =>
      E.ite ?_ (fun h => ?_) fun _ => E.ite ?_ (fun h => ?_) fun _ => E.ite ?_ (fun h => ?_) fun _ =>
      E.ite rfl (fun h => ?_) fun _ => E.no
    · rw [nextSym_app (by decide)]
      cases hn : nextSym (c% "(") ts with
      | false => simp
      | true => rw [secondInt_app hn]
    · have hn : nextSym (c% "(") ts = true := by simp only [Bool.and_eq_true] at h; exact h.1.2
      rw [drop1_sym hn]
      exact (hr _ _).bind fun _ _ _ => E.ret
    · rw [nextIvField_app]
    · exact (pIvField_e _).bind fun _ _ _ => (pIvTo_e _).bind fun _ _ _ => E.ret
    · exact (pPrecision_e hr _).bind fun _ _ _ => (pZone_e _).bind fun _ _ _ => E.ret
    · rw [nextKw_app]
    · have hn : nextKw (c% "PRECISION") ts = true := by simp only [Bool.and_eq_true] at h; exact h.2
      rw [drop1_kw hn]
      exact E.ret
    · rw [nextSym_app (by decide)]
    · have hn : nextSym (c% "<") ts = true := by simp only [Bool.and_eq_true] at h; exact h.2
      rw [drop1_sym hn]
      exact (hr _ _).bind fun _ _ _ => (sym_e _ _).bind fun _ _ => E.ret
    · rw [nextSym_app (by decide)]
    · have hn : nextSym (c% "<") ts = true := by simp only [Bool.and_eq_true] at h; exact h.2
      rw [drop1_sym hn]
      exact (hr _ _).bind fun _ _ _ => (sym_e _ _).bind fun _ _ => (hr _ _).bind fun _ _ _ => (sym_e _ _).bind fun _ _ => E.ret
    · rw [sym_app (by decide)]
      cases sym (c% "(") ts with
      | none => exact E.ret
      | some u => exact (hr _ _).bind fun _ _ _ => E.ret

theorem pArrays_e (hr : TExt Y r) (acc : CTy) (ts : List Tok) : E Y (pArrays r acc ts) (pArrays r acc (ts ++ cl Y)) := by
  unfold pArrays
  rw [kw_app]
  cases kw (c% "ARRAY") ts with
  | none => exact E.ret
  | some u =>
    simp only [Option.map_some]
    rw [sym_app (by decide)]
    cases sym (c% "[") u with
    | none => exact hr _ _
    | some v => exact (pKind_e _ _).bind fun _ _ _ => (sym_e _ _).bind fun _ _ => hr _ _

theorem namedField_app (ts : List Tok) : namedField (ts ++ cl Y) = namedField ts := by
  match ts with
  | [] => cases Y <;> rfl
  | [t] => show (t.isIdent && false && _ && _ && _ && _) = false; simp
  | t :: u :: ts =>
    show namedField (t :: u :: (ts ++ cl Y)) = _
    rw [namedField, namedField, nextSym_app (by decide), nextSym_app (by decide)]

theorem pField_e (hr : TExt Y r) (ts : List Tok) : E Y (pField r ts) (pField r (ts ++ cl Y)) := by
  unfold pField
  refine E.ite (namedField_app _) (fun _ => ?_) fun _ => ?_
  · exact (pIdent_e _).bind fun _ _ _ => (hr _ _).bind fun _ _ _ => E.ret
  · exact (hr _ _).bind fun _ _ _ => E.ret

theorem tStep_e (hr : TExt Y r) : TExt Y (tStep r) := by
  intro nt ts
  cases nt with
  | ty => exact (pTypeBase_e hr _).bind fun _ _ _ => hr _ _
  | arrays acc => exact pArrays_e hr acc ts
  | fields =>
    refine (pField_e hr _).bind fun f u _ => ?_
    dsimp only
    rw [sym_app (by decide)]
    cases sym (c% ",") u with
    | some v => exact (hr _ _).bind fun _ _ _ => E.ret
    | none => exact (sym_e _ _).bind fun _ _ => E.ret
  | params =>
    refine (pTypeParam_e hr _).bind fun f u _ => ?_
    dsimp only
    rw [sym_app (by decide)]
    cases sym (c% ",") u with
    | some v => exact (hr _ _).bind fun _ _ _ => E.ret
    | none => exact (sym_e _ _).bind fun _ _ => E.ret
end

theorem tParser_e : ∀ n, TExt Y (tParser n)
  | 0 => fun _ _ => E.no
  | n + 1 => tStep_e (tParser_e n)

theorem pType_e (ts : List Tok) : E Y (pType ts) (pType (ts ++ cl Y)) := by
  intro o rest h
  unfold pType at h ⊢
  exact tParser_some (tParser_e _ _ _ _ _ h) (by rw [List.length_append]; omega)

end Treeno
