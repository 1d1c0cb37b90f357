import Verif.Parse
import Verif.Lemmas.Respell
/-!
# Reading tokens does not depend on the case of keywords

`Keeps σ`: `σ` may only change the letter case of keywords.
-/
namespace Treeno

/-- `σ` keeps the class of every token, every token that is not a keyword, and every keyword up to case.  What it
changes is a keyword. -/
structure Keeps (σ : Tok → Tok) : Prop where
  kind : ∀ t, (σ t).kind = t.kind
  up : ∀ t, upper (σ t).text = upper t.text
  other : ∀ t, t.kind ≠ .kw → σ t = t
  word : ∀ t, σ t ≠ t → upper t.text ∈ keywords

variable {σ : Tok → Tok}

theorem Keeps.isKw (h : Keeps σ) (k : Str) (t : Tok) : (σ t).isKw k = t.isKw k := by
  simp only [Tok.isKw, h.kind, h.up]
theorem Keeps.isKw' (h : Keeps σ) (k : Str) : (fun t => (σ t).isKw k) = Tok.isKw k := funext (h.isKw k)
theorem Keeps.isKwOf (h : Keeps σ) (k : List Str) (t : Tok) : (σ t).isKwOf k = t.isKwOf k := by
  simp only [Tok.isKwOf, h.kind, h.up]
theorem Keeps.isKwOf' (h : Keeps σ) (k : List Str) : (fun t => (σ t).isKwOf k) = Tok.isKwOf k :=
  funext (h.isKwOf k)

/-- A test that only looks at the text of tokens that are no keywords. -/
theorem Keeps.test (h : Keeps σ) {f : Tok → Bool} (hf : ∀ t, t.kind = .kw → f t = false) (t : Tok) :
    f (σ t) = f t := by
  by_cases hk : t.kind = .kw
  · rw [hf t hk, hf (σ t) (by rw [h.kind]; exact hk)]
  · rw [h.other t hk]

theorem Keeps.isSym (h : Keeps σ) (s : Str) (t : Tok) : (σ t).isSym s = t.isSym s :=
  h.test (f := Tok.isSym s) (fun t ht => by simp [Tok.isSym, ht]) t
theorem Keeps.isSym' (h : Keeps σ) (s : Str) : (fun t => (σ t).isSym s) = Tok.isSym s := funext (h.isSym s)
theorem Keeps.isSymOf (h : Keeps σ) (s : List Str) (t : Tok) : (σ t).isSymOf s = t.isSymOf s :=
  h.test (f := Tok.isSymOf s) (fun t ht => by simp [Tok.isSymOf, ht]) t
theorem Keeps.isSymOf' (h : Keeps σ) (s : List Str) : (fun t => (σ t).isSymOf s) = Tok.isSymOf s :=
  funext (h.isSymOf s)
theorem Keeps.isIdent (h : Keeps σ) (t : Tok) : (σ t).isIdent = t.isIdent := by
  simp only [Tok.isIdent, h.kind, h.up]
theorem Keeps.isIdent' (h : Keeps σ) : (fun t => (σ t).isIdent) = Tok.isIdent := funext h.isIdent
theorem Keeps.isIvField (h : Keeps σ) (t : Tok) : (σ t).isIvField = t.isIvField := by
  simp only [Tok.isIvField, h.kind, h.up]
theorem Keeps.isNum (h : Keeps σ) (t : Tok) : (σ t).isNum = t.isNum := by
  simp only [Tok.isNum, h.kind]
theorem Keeps.isNum' (h : Keeps σ) : (fun t => (σ t).isNum) = Tok.isNum := funext h.isNum
theorem Keeps.isCmp (h : Keeps σ) (t : Tok) : (σ t).isCmp = t.isCmp := h.isSymOf _ t
theorem Keeps.isCount (h : Keeps σ) (t : Tok) : (σ t).isCount = t.isCount := by
  simp only [Tok.isCount, h.kind, h.isSym]
theorem Keeps.rank (h : Keeps σ) (t : Tok) : (σ t).rank = t.rank := by
  simp only [Tok.rank, h.kind, h.isSym, h.isSymOf, h.isKw, h.isKwOf, h.isCmp]
theorem Keeps.isWinName (h : Keeps σ) (t : Tok) : (σ t).isWinName = t.isWinName := by
  simp only [Tok.isWinName, Tok.isFrame, h.isIdent, h.isKw, h.isKwOf]
theorem Keeps.isAlias (h : Keeps σ) (t : Tok) : (σ t).isAlias = t.isAlias := by
  simp only [Tok.isAlias, h.isIdent, h.isKwOf]
theorem Keeps.isSetOp (h : Keeps σ) (p : Nat) (t : Tok) : (σ t).isSetOp p = t.isSetOp p := by
  unfold Tok.isSetOp
  split
  · exact h.isKwOf _ t
  · exact h.isKw _ t
  · rfl

/-- A parser's result with its tokens changed. -/
def out {α β} (σ : Tok → Tok) (f : α → β) (p : α × List Tok) : β × List Tok := (f p.1, p.2.map σ)

theorem out_fst {α β} (f : α → β) (p : α × List Tok) : (out σ f p).1 = f p.1 := rfl
theorem out_snd {α β} (f : α → β) (p : α × List Tok) : (out σ f p).2 = p.2.map σ := rfl
theorem out_mk {α β} (f : α → β) (a : α) (ts : List Tok) : out σ f (a, ts) = (f a, ts.map σ) := rfl

/-- The test is not affected by `σ`. -/
def Blind (σ : Tok → Tok) (f : Tok → Bool) : Prop := ∀ t, f (σ t) = f t

theorem tokIf_map {f : Tok → Bool} (hf : Blind σ f) (ts : List Tok) :
    tokIf f (ts.map σ) = (tokIf f ts).map (out σ σ) := by
  cases ts with
  | nil => rfl
  | cons t ts =>
    simp only [List.map_cons, tokIf, hf t]
    split <;> rfl

theorem optTok_map {f : Tok → Bool} (hf : Blind σ f) (ts : List Tok) :
    optTok f (ts.map σ) = out σ (Option.map σ) (optTok f ts) := by
  cases ts with
  | nil => rfl
  | cons t ts =>
    simp only [List.map_cons, optTok, hf t]
    split <;> rfl

theorem optTok_fst {f : Tok → Bool} (hf : Blind σ f) (ts : List Tok) :
    (optTok f (ts.map σ)).1 = (optTok f ts).1.map σ := by rw [optTok_map hf]; rfl
theorem optTok_snd {f : Tok → Bool} (hf : Blind σ f) (ts : List Tok) :
    (optTok f (ts.map σ)).2 = (optTok f ts).2.map σ := by rw [optTok_map hf]; rfl

theorem nextIs_map {f : Tok → Bool} (hf : Blind σ f) (ts : List Tok) : nextIs f (ts.map σ) = nextIs f ts := by
  cases ts with
  | nil => rfl
  | cons t ts => exact hf t

theorem next2_map {f g : Tok → Bool} (hf : Blind σ f) (hg : Blind σ g) (ts : List Tok) :
    next2 f g (ts.map σ) = next2 f g ts := by
  match ts with
  | [] => rfl
  | [_] => rfl
  | t :: u :: ts => simp only [List.map_cons, next2, hf t, hg u]

variable (h : Keeps σ)
include h

theorem kw_map (k : Str) (ts : List Tok) : kw k (ts.map σ) = (kw k ts).map (List.map σ) := by
  cases ts with
  | nil => rfl
  | cons t ts =>
    simp only [List.map_cons, kw, h.isKw]
    split <;> rfl
theorem sym_map (k : Str) (ts : List Tok) : sym k (ts.map σ) = (sym k ts).map (List.map σ) := by
  cases ts with
  | nil => rfl
  | cons t ts =>
    simp only [List.map_cons, sym, h.isSym]
    split <;> rfl
theorem pIdent_map (ts : List Tok) : pIdent (ts.map σ) = (pIdent ts).map (out σ σ) := by
  cases ts with
  | nil => rfl
  | cons t ts =>
    simp only [List.map_cons, pIdent, h.isIdent]
    split <;> rfl
theorem pKind_map (k : Kind) (ts : List Tok) : pKind k (ts.map σ) = (pKind k ts).map (out σ σ) := by
  cases ts with
  | nil => rfl
  | cons t ts =>
    simp only [List.map_cons, pKind, h.kind]
    split <;> rfl
theorem pIvField_map (ts : List Tok) : pIvField (ts.map σ) = (pIvField ts).map (out σ σ) := by
  cases ts with
  | nil => rfl
  | cons t ts =>
    simp only [List.map_cons, pIvField, h.isIvField]
    split <;> rfl
theorem nextKw_map (k : Str) (ts : List Tok) : nextKw k (ts.map σ) = nextKw k ts := by
  cases ts with
  | nil => rfl
  | cons t ts => exact h.isKw k t
theorem nextSym_map (k : Str) (ts : List Tok) : nextSym k (ts.map σ) = nextSym k ts := by
  cases ts with
  | nil => rfl
  | cons t ts => exact h.isSym k t
theorem nextIvField_map (ts : List Tok) : nextIvField (ts.map σ) = nextIvField ts := by
  cases ts with
  | nil => rfl
  | cons t ts => exact h.isIvField t
theorem optKw_map (k : Str) (ts : List Tok) : optKw k (ts.map σ) = out σ id (optKw k ts) := by
  cases ts with
  | nil => rfl
  | cons t ts =>
    simp only [List.map_cons, optKw, h.isKw]
    split <;> rfl
theorem optKw_fst (k : Str) (ts : List Tok) : (optKw k (ts.map σ)).1 = (optKw k ts).1 := by
  rw [optKw_map h]; rfl
theorem optKw_snd (k : Str) (ts : List Tok) : (optKw k (ts.map σ)).2 = (optKw k ts).2.map σ := by
  rw [optKw_map h]; rfl
theorem nextStr_map (ts : List Tok) : nextStr (ts.map σ) = nextStr ts :=
  nextIs_map (fun t => by simp only [h.kind]) ts
theorem secondInt_map (ts : List Tok) : secondInt (ts.map σ) = secondInt ts := by
  match ts with
  | [] => rfl
  | [_] => rfl
  | t :: u :: ts => simp only [List.map_cons, secondInt, h.kind]

theorem pIdents_map : ∀ ts : List Tok, pIdents (ts.map σ) = (pIdents ts).map (out σ (List.map σ))
  | [] => rfl
  | [t] => by
    simp only [List.map_cons, List.map_nil, pIdents, h.isIdent]
    split <;> rfl
  | t :: u :: ts => by
    simp only [List.map_cons, pIdents, h.isIdent, h.isSym, pIdents_map ts]
    split
    · split
      · cases pIdents ts <;> rfl
      · rfl
    · rfl
theorem pQName_map : ∀ ts : List Tok, pQName (ts.map σ) = (pQName ts).map (out σ (List.map σ))
  | [] => rfl
  | [t] => by
    simp only [List.map_cons, List.map_nil, pQName, h.isIdent]
    split <;> rfl
  | t :: u :: ts => by
    simp only [List.map_cons, pQName, h.isIdent, h.isSym, pQName_map ts, nextIs_map (h.isIdent)]
    split
    · split
      · cases pQName ts <;> rfl
      · rfl
    · rfl
omit h in
theorem consHead_map (t : Tok) (ns : List (List Tok)) :
    consHead (σ t) (ns.map (List.map σ)) = (consHead t ns).map (List.map σ) := by
  cases ns <;> rfl
theorem pQNames_map : ∀ ts : List Tok, pQNames (ts.map σ) = (pQNames ts).map (out σ (List.map (List.map σ)))
  | [] => rfl
  | [t] => by
    simp only [List.map_cons, List.map_nil, pQNames, h.isIdent]
    split <;> rfl
  | t :: u :: ts => by
    simp only [List.map_cons, pQNames, h.isIdent, h.isSym, pQNames_map ts]
    split
    · split
      · cases pQNames ts with
        | none => rfl
        | some p => simp only [Option.map_some, out, consHead_map]
      · split
        · cases pQNames ts <;> rfl
        · rfl
    · rfl

theorem scanClose_map : ∀ (d : Nat) (ts : List Tok), scanClose d (ts.map σ) = (scanClose d ts).map (List.map σ)
  | _, [] => rfl
  | d, t :: ts => by
    simp only [List.map_cons, scanClose, h.isSym]
    split
    · exact scanClose_map (d + 1) ts
    · split
      · cases d with
        | zero => rfl
        | succ d => exact scanClose_map d ts
      · exact scanClose_map d ts
theorem afterClose_map {f : List Tok → Bool} (hf : ∀ ts, f (ts.map σ) = f ts) (ts : List Tok) :
    afterClose f (ts.map σ) = afterClose f ts := by
  unfold afterClose
  rw [scanClose_map h]
  cases scanClose 0 ts with
  | none => rfl
  | some r => exact hf r
theorem qnwStart_map : ∀ ts : List Tok, qnwStart (ts.map σ) = qnwStart ts
  | [] => rfl
  | t :: ts => by
    simp only [List.map_cons, qnwStart, h.isSym, h.isKwOf, qnwStart_map ts]
    rw [afterClose_map h (nextIs_map fun u => by simp only [h.isSym, h.isKwOf])]
theorem qStart_map (ts : List Tok) : qStart (ts.map σ) = qStart ts := by
  simp only [qStart, nextKw_map h, qnwStart_map h]
theorem inStart_map (ts : List Tok) : inStart (ts.map σ) = inStart ts := by
  simp only [inStart, qStart_map h, nextSym_map h, ← List.map_drop]
  rw [afterClose_map h (nextIs_map (h.isKwOf _))]
theorem setEnd_map (ts : List Tok) : setEnd (ts.map σ) = setEnd ts := by
  unfold setEnd
  exact afterClose_map h (fun ts => by rw [nextIs_map (fun t => by rw [h.rank])]) ts
theorem signNext_map (ts : List Tok) : signNext (ts.map σ) = signNext ts := by
  cases ts with
  | nil => rfl
  | cons t ts => simp only [List.map_cons, signNext, h.isSym, nextIs_map h.isNum]
theorem intervalNext_map (ts : List Tok) : intervalNext (ts.map σ) = intervalNext ts := by
  simp only [intervalNext, nextStr_map h, ← List.map_drop, nextIs_map (h.isSymOf _)]
theorem namedField_map (ts : List Tok) : namedField (ts.map σ) = namedField ts := by
  match ts with
  | [] => rfl
  | [_] => rfl
  | t :: u :: ts => simp only [List.map_cons, namedField, h.isIdent, h.isKw, h.isIvField, nextSym_map h]

end Treeno
