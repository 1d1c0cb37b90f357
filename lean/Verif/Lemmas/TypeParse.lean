import Verif.TypeParse
import Verif.Lemmas.LexText
import Verif.Lemmas.Types
import Verif.Spec.TypeText

/-!
# Lemmas on reading data types
-/
namespace Treeno
open Lean.Order

/-! ## Fuel -/

theorem pTypeParam_mono : monotone pTypeParam := by
  unfold pTypeParam
  repeat monotonicity

theorem pPrecision_mono : monotone pPrecision := by
  unfold pPrecision pTypeParam
  repeat monotonicity

theorem pTypeBase_mono : monotone pTypeBase := by
  unfold pTypeBase pPrecision pTypeParam
  repeat monotonicity

theorem pArrays_mono (acc : CTy) : monotone (fun r => pArrays r acc) := by
  unfold pArrays
  repeat monotonicity

theorem tStep_mono : monotone tStep := by
  unfold tStep pField pTypeBase pPrecision pTypeParam pArrays
  apply monotone_of_monotone_apply
  intro nt
  cases nt <;> dsimp only <;> repeat monotonicity

theorem tParser_le (n : Nat) (k : Nat) : tParser n ⊑ tParser (n + k) := by
  induction n with
  | zero =>
    intro nt ts
    exact FlatOrder.rel.bot
  | succ n ih =>
    rw [Nat.succ_add]
    exact tStep_mono _ _ ih

theorem tParser_some {n m : Nat} {nt : TNT} {ts : List Tok} {x} (h : tParser n nt ts = some x)
    (hle : n ≤ m) : tParser m nt ts = some x := by
  obtain ⟨k, rfl⟩ := Nat.exists_eq_add_of_le hle
  have := tParser_le n k nt ts
  rw [h] at this
  generalize hy : tParser (n + k) nt ts = y at this
  cases this
  rfl

/-! ## The tokens of a printed type -/

/-- A keyword token. -/
abbrev kwTok (k : Str) : Tok := ⟨.kw, k⟩
/-- A symbol token. -/
abbrev symTok (s : Str) : Tok := ⟨.sym, s⟩

/-- The tokens of `intStr`. -/
def intToks : Int → List Tok
  | .ofNat n => [⟨.int, natStr n⟩]
  | .negSucc n => [symTok (c% "-"), ⟨.int, natStr (n + 1)⟩]

/-- The token of the name of a parameterless type. -/
def simpleTok (s : Simple) : Tok :=
  ⟨match s with
    | .double | .json | .date | .unknown => .kw
    | _ => .ident, s.name⟩

/-- Separate with a token. -/
def sepT (t : Tok) : List (List Tok) → List Tok
  | [] => []
  | [x] => x
  | x :: y :: r => x ++ t :: sepT t (y :: r)

/-- The tokens of `timeSuffix`. -/
def timeToks (p : Option Int) (tz : Bool) : List Tok :=
  (match p with
    | none => []
    | some p => symTok (c% "(") :: (intToks p ++ [symTok (c% ")")])) ++
  (if tz then [kwTok (c% "WITH"), kwTok (c% "TIME"), kwTok (c% "ZONE")] else [])

mutual
/-- The tokens of `Ty.sql`. -/
def tyToks : Ty → List Tok
  | .simple s => [simpleTok s]
  | .decimal p s => ⟨.ident, c% "DECIMAL"⟩ :: symTok (c% "(") ::
      (intToks p ++ symTok (c% ",") :: (intToks s ++ [symTok (c% ")")]))
  | .varchar n => match n with
    | none => [⟨.ident, c% "VARCHAR"⟩]
    | some n => ⟨.ident, c% "VARCHAR"⟩ :: symTok (c% "(") :: (intToks n ++ [symTok (c% ")")])
  | .char n => ⟨.ident, c% "CHAR"⟩ :: symTok (c% "(") :: (intToks n ++ [symTok (c% ")")])
  | .time p tz => kwTok (c% "TIME") :: timeToks p tz
  | .timestamp p tz => kwTok (c% "TIMESTAMP") :: timeToks p tz
  | .interval k => [kwTok (c% "INTERVAL"), kwTok k.fromS, kwTok (c% "TO"), kwTok k.toS]
  | .array t => kwTok (c% "ARRAY") :: symTok (c% "(") :: (tyToks t ++ [symTok (c% ")")])
  | .map a b => kwTok (c% "MAP") :: symTok (c% "(") ::
      (tyToks a ++ symTok (c% ",") :: (tyToks b ++ [symTok (c% ")")]))
  | .row l => kwTok (c% "ROW") :: symTok (c% "(") :: (sepT (symTok (c% ",")) (tyToksL l) ++ [symTok (c% ")")])
  | .qdigest t => ⟨.ident, c% "QDIGEST"⟩ :: symTok (c% "(") :: (tyToks t ++ [symTok (c% ")")])
/-- The tokens of each type of a list. -/
def tyToksL : List Ty → List (List Tok)
  | [] => []
  | t :: r => tyToks t :: tyToksL r
end

theorem LxA.minus_nat (n : Nat) : Lx ('-' :: natStr n) [symTok (c% "-"), ⟨.int, natStr n⟩] := by
  have hd := natStr_digits n
  have hne := natStr_ne_nil n
  have hl := Lx.nat n
  generalize natStr n = w at *
  cases w with
  | nil => exact absurd rfl hne
  | cons d w =>
    intro k rest hr
    have hdig := hd d (by simp)
    have hno : '\n' ∉ d :: w := by
      intro hm; exact absurd (hd _ hm) (by decide)
    have h := hl k rest hr
    rw [ind_plain _ _ hno] at h
    rw [ind_plain _ _ (by simpa using hno)]
    have hlex : lexOne '-' (d :: w ++ rest) = (symTok (c% "-"), d :: w ++ rest) := by
      have h1 : d ≠ '-' := isDigit_ne hdig (by decide)
      have h2 : d ≠ '>' := isDigit_ne hdig (by decide)
      have h3 : d ≠ '}' := isDigit_ne hdig (by decide)
      show (match (generalizing := false) d :: w ++ rest with
        | '-' :: r => ((⟨.comment, '-' :: '-' :: (lineComment r).1⟩, (lineComment r).2) : Tok × Str)
        | _ => lexSym '-' (d :: w ++ rest)) = _
      rw [List.cons_append]
      split
      · rename_i heq; injection heq with hx _; exact absurd hx h1
      · unfold lexSym
        dsimp only
        rw [if_neg (c := twoSyms.contains ['-', d] = true)]
        · rfl
        · simp [twoSyms, h2, h3]
    rw [List.cons_append, toks_step hlex, h]; rfl

theorem Lx.intStr (i : Int) : Lx (intStr i) (intToks i) := by
  cases i with
  | ofNat n => exact Lx.nat n
  | negSucc n => exact LxA.minus_nat (n + 1)

theorem lx_simple (s : Simple) : Lx s.name [simpleTok s] := by
  cases s <;> exact Lx.lit _ _ (by decide +kernel)

theorem lx_timeSuffix (w : Str) (t : Tok) (h : Lx w [t]) (p : Option Int) (tz : Bool) :
    Lx (w ++ timeSuffix p tz) (t :: timeToks p tz) := by
  have hz : Lx (c% " WITH TIME ZONE") [kwTok (c% "WITH"), kwTok (c% "TIME"), kwTok (c% "ZONE")] :=
    Lx.lit _ _ (by decide +kernel)
  cases p with
  | none =>
    cases tz with
    | false => simpa [timeSuffix, timeToks] using h
    | true => simpa [timeSuffix, timeToks] using h.append hz rfl
  | some p =>
    have hp := h.appendA ((LxA.lpar.appendLx (Lx.intStr p)).appendA LxA.rpar rfl) rfl
    cases tz with
    | false => simpa [timeSuffix, timeToks] using hp.lx
    | true => simpa [timeSuffix, timeToks] using hp.appendLx hz

theorem lx_sepJoin (ss : List Str) (tss : List (List Tok))
    (h : List.length ss = tss.length) (hx : ∀ p ∈ ss.zip tss, Lx p.1 p.2) :
    Lx (join (c% ",") ss) (sepT (symTok (c% ",")) tss) := by
  induction ss generalizing tss with
  | nil =>
    cases tss with
    | nil => exact LxA.nil.lx
    | cons _ _ => simp at h
  | cons s ss ih =>
    cases tss with
    | nil => simp at h
    | cons t tss =>
      have h1 : Lx s t := hx (s, t) (by simp)
      cases ss with
      | nil =>
        cases tss with
        | nil => exact h1
        | cons _ _ => simp at h
      | cons s2 ss =>
        cases tss with
        | nil => simp at h
        | cons t2 tss =>
          have h2 := ih (t2 :: tss) (by simpa using h) (fun p hp => hx p (by
            rw [List.zip_cons_cons]; exact List.mem_cons_of_mem _ hp))
          have := (h1.appendA LxA.comma rfl).appendLx h2
          simpa [join, sepT] using this

mutual
/-- The tokens of the text of a type, wherever it stands. -/
theorem lx_ty : ∀ t : Ty, Lx t.sql (tyToks t)
  | .simple s => lx_simple s
  | .decimal p s => by
    have h1 : LxA (c% "DECIMAL(") [⟨.ident, c% "DECIMAL"⟩, symTok (c% "(")] :=
      LxA.lit _ _ (by decide +kernel)
    have := ((((h1.appendLx (Lx.intStr p)).appendA LxA.comma rfl).appendLx (Lx.intStr s)).appendA
      LxA.rpar rfl).lx
    simpa [Ty.sql, tyToks] using this
  | .varchar none => Lx.lit _ _ (by decide +kernel)
  | .varchar (some n) => by
    have h1 : LxA (c% "VARCHAR(") [⟨.ident, c% "VARCHAR"⟩, symTok (c% "(")] :=
      LxA.lit _ _ (by decide +kernel)
    simpa [Ty.sql, tyToks] using ((h1.appendLx (Lx.intStr n)).appendA LxA.rpar rfl).lx
  | .char n => by
    have h1 : LxA (c% "CHAR(") [⟨.ident, c% "CHAR"⟩, symTok (c% "(")] :=
      LxA.lit _ _ (by decide +kernel)
    simpa [Ty.sql, tyToks] using ((h1.appendLx (Lx.intStr n)).appendA LxA.rpar rfl).lx
  | .time p tz => by
    have := lx_timeSuffix (c% "TIME") (kwTok (c% "TIME")) (Lx.lit _ _ (by decide +kernel)) p tz
    simpa only [Ty.sql, tyToks] using this
  | .timestamp p tz => by
    have := lx_timeSuffix (c% "TIMESTAMP") (kwTok (c% "TIMESTAMP")) (Lx.lit _ _ (by decide +kernel)) p tz
    simpa only [Ty.sql, tyToks] using this
  | .interval .yearToMonth => Lx.lit _ _ (by decide +kernel)
  | .interval .dayToSecond => Lx.lit _ _ (by decide +kernel)
  | .array t => by
    have h1 : LxA (c% "ARRAY(") [kwTok (c% "ARRAY"), symTok (c% "(")] := LxA.lit _ _ (by decide +kernel)
    simpa [Ty.sql, tyToks] using ((h1.appendLx (lx_ty t)).appendA LxA.rpar rfl).lx
  | .map a b => by
    have h1 : LxA (c% "MAP(") [kwTok (c% "MAP"), symTok (c% "(")] := LxA.lit _ _ (by decide +kernel)
    simpa [Ty.sql, tyToks] using ((((h1.appendLx (lx_ty a)).appendA LxA.comma rfl).appendLx
      (lx_ty b)).appendA LxA.rpar rfl).lx
  | .row l => by
    have h1 : LxA (c% "ROW(") [kwTok (c% "ROW"), symTok (c% "(")] := LxA.lit _ _ (by decide +kernel)
    have h2 := lx_sepJoin _ _ (sqlList_length l) (lx_tys l)
    simpa [Ty.sql, tyToks] using ((h1.appendLx h2).appendA LxA.rpar rfl).lx
  | .qdigest t => by
    have h1 : LxA (c% "QDIGEST(") [⟨.ident, c% "QDIGEST"⟩, symTok (c% "(")] :=
      LxA.lit _ _ (by decide +kernel)
    simpa [Ty.sql, tyToks] using ((h1.appendLx (lx_ty t)).appendA LxA.rpar rfl).lx
theorem sqlList_length : ∀ l : List Ty, (Ty.sqlList l).length = (tyToksL l).length
  | [] => rfl
  | _ :: r => by simp [Ty.sqlList, tyToksL, sqlList_length r]
theorem lx_tys : ∀ l : List Ty, ∀ p ∈ (Ty.sqlList l).zip (tyToksL l), Lx p.1 p.2
  | [], p, hp => by simp [Ty.sqlList, tyToksL] at hp
  | t :: r, p, hp => by
    simp only [Ty.sqlList, tyToksL, List.zip_cons_cons, List.mem_cons] at hp
    rcases hp with rfl | hp
    · exact lx_ty t
    · exact lx_tys r p hp
end

/-! ## Reading a printed type -/

/-- The parse tree of an integer parameter. -/
def intParam (i : Int) : CTParam := .int ⟨.int, natStr i.toNat⟩

mutual
/-- The parse tree of the text of a type. -/
def tyCst : Ty → CTy
  | .simple s => .generic (simpleTok s) []
  | .decimal p s => .generic ⟨.ident, c% "DECIMAL"⟩ [intParam p, intParam s]
  | .varchar n => .generic ⟨.ident, c% "VARCHAR"⟩ (match n with
    | none => []
    | some n => [intParam n])
  | .char n => .generic ⟨.ident, c% "CHAR"⟩ [intParam n]
  | .time p tz => .datetime false (p.map intParam) (if tz then some true else none)
  | .timestamp p tz => .datetime true (p.map intParam) (if tz then some true else none)
  | .interval k => .interval (kwTok k.fromS) (some (kwTok k.toS))
  | .array t => .generic (kwTok (c% "ARRAY")) [.ty (tyCst t)]
  | .map a b => .generic (kwTok (c% "MAP")) [.ty (tyCst a), .ty (tyCst b)]
  | .row l => .row (tyCsts l)
  | .qdigest t => .generic ⟨.ident, c% "QDIGEST"⟩ [.ty (tyCst t)]
def tyCsts : List Ty → List CField
  | [] => []
  | t :: r => .mk none (tyCst t) :: tyCsts r
end

/-- What may follow a type: nothing, a comma or a closing parenthesis. -/
def TyStop : List Tok → Bool
  | [] => true
  | t :: _ => t == symTok (c% ",") || t == symTok (c% ")")

theorem tyStop_cases {ts : List Tok} (h : TyStop ts = true) :
    ts = [] ∨ (∃ r, ts = symTok (c% ",") :: r) ∨ ∃ r, ts = symTok (c% ")") :: r := by
  cases ts with
  | nil => exact .inl rfl
  | cons t r =>
    simp only [TyStop, Bool.or_eq_true, beq_iff_eq] at h
    rcases h with rfl | rfl
    · exact .inr (.inl ⟨r, rfl⟩)
    · exact .inr (.inr ⟨r, rfl⟩)

theorem arrays_stop (n : Nat) (acc : CTy) (ts : List Tok) (h : TyStop ts = true) :
    tParser (n + 1) (.arrays acc) ts = some (acc, ts) := by
  rcases tyStop_cases h with rfl | ⟨r, rfl⟩ | ⟨r, rfl⟩ <;> rfl

/-- From a successful base to the type. -/
theorem ty_of_base {n : Nat} {ts rest : List Tok} {c : CTy} (h : pTypeBase (tParser (n + 1)) ts = some (c, rest))
    (hr : TyStop rest = true) : tParser (n + 2) .ty ts = some (c, rest) := by
  show Option.bind (β := CTy × List Tok) (pTypeBase (tParser (n + 1)) ts) (fun x => tParser (n + 1) (.arrays x.1) x.2) = _
  rw [h]
  exact arrays_stop n c rest hr

theorem intToks_nonneg {i : Int} (h : 0 ≤ i) : intToks i = [⟨.int, natStr i.toNat⟩] := by
  cases i with
  | ofNat n => rfl
  | negSucc n => omega

/-- One integer parameter and the closing parenthesis. -/
theorem params_int (n : Nat) (t : Tok) (ht : t.kind = .int) (rest : List Tok) :
    tParser (n + 1) .params (t :: symTok (c% ")") :: rest) = some ([.int t], rest) := by
  obtain ⟨k, w⟩ := t
  cases ht
  rfl

/-- An integer parameter, a comma, and more parameters. -/
theorem params_int_cons (n : Nat) (t : Tok) (ht : t.kind = .int) (ts rest : List Tok) (ps)
    (h : tParser n .params ts = some (ps, rest)) :
    tParser (n + 1) .params (t :: symTok (c% ",") :: ts) = some (.int t :: ps, rest) := by
  obtain ⟨k, w⟩ := t
  cases ht
  show (tParser n .params ts).bind (fun x => some (_ :: x.1, x.2)) = _
  rw [h]; rfl

/-- The text of a type does not start with an integer. -/
theorem tyToks_head (t : Ty) : ∃ u us, tyToks t = u :: us ∧ (u.kind == Kind.int) = false := by
  cases t with
  | simple s => exact ⟨_, _, rfl, by cases s <;> rfl⟩
  | varchar n => cases n <;> exact ⟨_, _, rfl, rfl⟩
  | _ => exact ⟨_, _, rfl, rfl⟩

theorem pTypeParam_ty (r : TRec) (t : Ty) (rest : List Tok) :
    pTypeParam r (tyToks t ++ rest) = (r .ty (tyToks t ++ rest)).bind (fun x => some (.ty x.1, x.2)) := by
  obtain ⟨u, us, h1, h2⟩ := tyToks_head t
  rw [h1]
  unfold pTypeParam pKind
  simp only [List.cons_append, h2, Bool.false_eq_true, if_false]
  rfl

theorem params_ty (n : Nat) (t : Ty) (c : CTy) (rest : List Tok)
    (h : tParser n .ty (tyToks t ++ symTok (c% ")") :: rest) = some (c, symTok (c% ")") :: rest)) :
    tParser (n + 1) .params (tyToks t ++ symTok (c% ")") :: rest) = some ([.ty c], rest) := by
  show (pTypeParam (tParser n) _).bind _ = _
  rw [pTypeParam_ty, h]
  rfl

theorem params_ty_cons (n : Nat) (t : Ty) (c : CTy) (ts rest : List Tok) (ps)
    (h : tParser n .ty (tyToks t ++ symTok (c% ",") :: ts) = some (c, symTok (c% ",") :: ts))
    (h2 : tParser n .params ts = some (ps, rest)) :
    tParser (n + 1) .params (tyToks t ++ symTok (c% ",") :: ts) = some (.ty c :: ps, rest) := by
  show (pTypeParam (tParser n) _).bind _ = _
  rw [pTypeParam_ty, h]
  show (tParser n .params ts).bind (fun x => some (_ :: x.1, x.2)) = _
  rw [h2]; rfl

/-- The text of a type does not start with a field name. -/
theorem not_named (t : Ty) (rest : List Tok) (h : TyStop rest = true) :
    namedField (tyToks t ++ rest) = false := by
  have hu : ∀ (u : Tok) (us : List Tok), u.isIdent = false → ∀ t, namedField (t :: u :: us) = false := by
    intro u us hu t
    simp [namedField, hu]
  cases t with
  | simple s =>
    rcases tyStop_cases h with rfl | ⟨r, rfl⟩ | ⟨r, rfl⟩
    · rfl
    · exact hu _ _ rfl _
    · exact hu _ _ rfl _
  | varchar n =>
    cases n with
    | none =>
      rcases tyStop_cases h with rfl | ⟨r, rfl⟩ | ⟨r, rfl⟩
      · rfl
      · exact hu _ _ rfl _
      · exact hu _ _ rfl _
    | some n => exact hu _ _ rfl _
  | interval k => cases k <;> rfl
  | time p z =>
    cases p with
    | none =>
      cases z with
      | false =>
        rcases tyStop_cases h with rfl | ⟨r, rfl⟩ | ⟨r, rfl⟩
        · rfl
        · exact hu _ _ rfl _
        · exact hu _ _ rfl _
      | true => exact hu _ _ rfl _
    | some p => exact hu _ _ rfl _
  | timestamp p z =>
    cases p with
    | none =>
      cases z with
      | false =>
        rcases tyStop_cases h with rfl | ⟨r, rfl⟩ | ⟨r, rfl⟩
        · rfl
        · exact hu _ _ rfl _
        · exact hu _ _ rfl _
      | true => exact hu _ _ rfl _
    | some p => exact hu _ _ rfl _
  | _ => exact hu _ _ rfl _

theorem pField_ty (r : TRec) (t : Ty) (rest : List Tok) (h : TyStop rest = true) :
    pField r (tyToks t ++ rest) = (r .ty (tyToks t ++ rest)).bind (fun x => some (.mk none x.1, x.2)) := by
  unfold pField
  rw [not_named t rest h]
  rfl

theorem fields_last (n : Nat) (t : Ty) (c : CTy) (rest : List Tok)
    (h : tParser n .ty (tyToks t ++ symTok (c% ")") :: rest) = some (c, symTok (c% ")") :: rest)) :
    tParser (n + 1) .fields (tyToks t ++ symTok (c% ")") :: rest) = some ([.mk none c], rest) := by
  show (pField (tParser n) _).bind _ = _
  rw [pField_ty _ _ _ rfl, h]
  rfl

theorem fields_cons (n : Nat) (t : Ty) (c : CTy) (ts rest : List Tok) (ps)
    (h : tParser n .ty (tyToks t ++ symTok (c% ",") :: ts) = some (c, symTok (c% ",") :: ts))
    (h2 : tParser n .fields ts = some (ps, rest)) :
    tParser (n + 1) .fields (tyToks t ++ symTok (c% ",") :: ts) = some (.mk none c :: ps, rest) := by
  show (pField (tParser n) _).bind _ = _
  rw [pField_ty _ _ _ rfl, h]
  show (tParser n .fields ts).bind (fun x => some (_ :: x.1, x.2)) = _
  rw [h2]; rfl

/-- A generic type with parameters. -/
theorem base_generic (r : TRec) (t : Tok) (ts rest : List Tok) (ps)
    (ht : t ∈ [⟨.ident, c% "DECIMAL"⟩, ⟨.ident, c% "VARCHAR"⟩, ⟨.ident, c% "CHAR"⟩, kwTok (c% "ARRAY"),
      kwTok (c% "MAP"), ⟨.ident, c% "QDIGEST"⟩])
    (h : r .params ts = some (ps, rest)) :
    pTypeBase r (t :: symTok (c% "(") :: ts) = some (.generic t ps, rest) := by
  have : pTypeBase r (t :: symTok (c% "(") :: ts) =
      (r .params ts).bind (fun x => some (.generic t x.1, x.2)) := by
    simp only [List.mem_cons, List.not_mem_nil, or_false] at ht
    rcases ht with rfl | rfl | rfl | rfl | rfl | rfl <;> rfl
  rw [this, h]; rfl

theorem base_row (r : TRec) (t : Tok) (ts rest : List Tok) (fs) (h : (t.kind == Kind.int) = false)
    (h2 : r .fields (t :: ts) = some (fs, rest)) :
    pTypeBase r (kwTok (c% "ROW") :: symTok (c% "(") :: t :: ts) = some (.row fs, rest) := by
  have : pTypeBase r (kwTok (c% "ROW") :: symTok (c% "(") :: t :: ts) =
      (r .fields (t :: ts)).bind (fun x => some (.row x.1, x.2)) := by
    obtain ⟨k, w⟩ := t
    cases k <;> first | rfl | (simp at h)
  rw [this, h2]; rfl

theorem base_time (r : TRec) (b : Bool) (p : Option Int) (tz : Bool) (rest : List Tok)
    (hp : ∀ q, p = some q → 0 ≤ q) (h : TyStop rest = true) :
    pTypeBase r (kwTok (if b then c% "TIMESTAMP" else c% "TIME") :: (timeToks p tz ++ rest)) =
      some (.datetime b (p.map intParam) (if tz then some true else none), rest) := by
  have hbase : ∀ ts, pTypeBase r (kwTok (if b then c% "TIMESTAMP" else c% "TIME") :: ts) =
      (pPrecision r ts).bind (fun x => (pZone x.2).bind (fun y => some (.datetime b x.1 y.1, y.2))) := by
    intro ts
    cases b
    · cases ts <;> rfl
    · cases ts <;> rfl
  have hz : ∀ pre, pZone ((if tz then [kwTok (c% "WITH"), kwTok (c% "TIME"), kwTok (c% "ZONE")] else pre) ++ rest) =
      if tz then some (some true, rest) else pZone (pre ++ rest) := by
    intro pre; cases tz <;> rfl
  have hz' : pZone rest = some (none, rest) := by
    rcases tyStop_cases h with rfl | ⟨s, rfl⟩ | ⟨s, rfl⟩ <;> rfl
  rw [hbase]
  cases p with
  | none =>
    have : pPrecision r (timeToks none tz ++ rest) = some (none, timeToks none tz ++ rest) := by
      cases tz
      · rcases tyStop_cases h with rfl | ⟨s, rfl⟩ | ⟨s, rfl⟩ <;> rfl
      · rfl
    rw [this]
    show (pZone _).bind _ = _
    simp only [timeToks, List.nil_append]
    rw [hz]
    cases tz
    · simp [hz']
    · rfl
  | some p =>
    have h0 := hp p rfl
    simp only [timeToks, intToks_nonneg h0]
    cases tz
    · show (pZone rest).bind _ = _
      rw [hz']; rfl
    · rfl

mutual
/-- The text of a readable type is read as its parse tree. -/
theorem parse_ty : ∀ (t : Ty), Spec.Readable t → ∀ (rest : List Tok), TyStop rest = true →
    ∀ n, 3 * (tyToks t).length ≤ n → tParser n .ty (tyToks t ++ rest) = some (tyCst t, rest)
  | .simple s, _, rest, hr, n, hn => by
    simp only [tyToks, List.length_cons, List.length_nil] at hn
    obtain ⟨m, rfl⟩ : ∃ m, n = m + 2 := ⟨n - 2, by omega⟩
    apply ty_of_base _ hr
    rcases tyStop_cases hr with rfl | ⟨r, rfl⟩ | ⟨r, rfl⟩ <;> cases s <;> rfl
  | .decimal p s, h, rest, hr, n, hn => by
    cases h with
    | decimal _ _ h1 h2 =>
    simp only [tyToks, intToks_nonneg h1, intToks_nonneg h2, List.length_cons, List.length_nil,
      List.length_append] at hn
    obtain ⟨m, rfl⟩ : ∃ m, n = m + 4 := ⟨n - 4, by omega⟩
    apply ty_of_base _ hr
    simp only [tyToks, intToks_nonneg h1, intToks_nonneg h2, List.cons_append, List.nil_append]
    exact base_generic _ _ _ _ _ (by decide) (params_int_cons _ _ rfl _ _ _ (params_int _ _ rfl _))
  | .varchar none, _, rest, hr, n, hn => by
    simp only [tyToks, List.length_cons, List.length_nil] at hn
    obtain ⟨m, rfl⟩ : ∃ m, n = m + 2 := ⟨n - 2, by omega⟩
    apply ty_of_base _ hr
    rcases tyStop_cases hr with rfl | ⟨r, rfl⟩ | ⟨r, rfl⟩ <;> rfl
  | .varchar (some k), h, rest, hr, n, hn => by
    cases h with
    | varchar _ h1 =>
    have h1 := h1 k rfl
    simp only [tyToks, intToks_nonneg h1, List.length_cons, List.length_nil, List.length_append] at hn
    obtain ⟨m, rfl⟩ : ∃ m, n = m + 3 := ⟨n - 3, by omega⟩
    apply ty_of_base _ hr
    simp only [tyToks, intToks_nonneg h1, List.cons_append, List.nil_append]
    exact base_generic _ _ _ _ _ (by decide) (params_int _ _ rfl _)
  | .char k, h, rest, hr, n, hn => by
    cases h with
    | char _ h1 =>
    simp only [tyToks, intToks_nonneg h1, List.length_cons, List.length_nil, List.length_append] at hn
    obtain ⟨m, rfl⟩ : ∃ m, n = m + 3 := ⟨n - 3, by omega⟩
    apply ty_of_base _ hr
    simp only [tyToks, intToks_nonneg h1, List.cons_append, List.nil_append]
    exact base_generic _ _ _ _ _ (by decide) (params_int _ _ rfl _)
  | .time p z, h, rest, hr, n, hn => by
    cases h with
    | time _ _ h1 =>
    simp only [tyToks, List.length_cons] at hn
    obtain ⟨m, rfl⟩ : ∃ m, n = m + 2 := ⟨n - 2, by omega⟩
    apply ty_of_base _ hr
    exact base_time _ false p z rest h1 hr
  | .timestamp p z, h, rest, hr, n, hn => by
    cases h with
    | timestamp _ _ h1 =>
    simp only [tyToks, List.length_cons] at hn
    obtain ⟨m, rfl⟩ : ∃ m, n = m + 2 := ⟨n - 2, by omega⟩
    apply ty_of_base _ hr
    exact base_time _ true p z rest h1 hr
  | .interval k, _, rest, hr, n, hn => by
    simp only [tyToks, List.length_cons, List.length_nil] at hn
    obtain ⟨m, rfl⟩ : ∃ m, n = m + 2 := ⟨n - 2, by omega⟩
    apply ty_of_base _ hr
    cases k <;> rfl
  | .array t, h, rest, hr, n, hn => by
    cases h with
    | array _ h1 =>
    simp only [tyToks, List.length_cons, List.length_nil, List.length_append] at hn
    obtain ⟨m, rfl⟩ : ∃ m, n = m + 3 := ⟨n - 3, by omega⟩
    apply ty_of_base _ hr
    simp only [tyToks, List.cons_append, List.append_assoc, List.nil_append]
    exact base_generic _ _ _ _ _ (by decide)
      (params_ty _ _ _ _ (parse_ty t h1 _ rfl (m + 1) (by omega)))
  | .map a b, h, rest, hr, n, hn => by
    cases h with
    | map _ _ h1 h2 =>
    simp only [tyToks, List.length_cons, List.length_nil, List.length_append] at hn
    obtain ⟨m, rfl⟩ : ∃ m, n = m + 4 := ⟨n - 4, by omega⟩
    apply ty_of_base _ hr
    simp only [tyToks, List.cons_append, List.append_assoc, List.nil_append]
    exact base_generic _ _ _ _ _ (by decide)
      (params_ty_cons _ _ _ _ _ _ (parse_ty a h1 _ rfl (m + 2) (by omega))
        (params_ty _ _ _ _ (parse_ty b h2 _ rfl (m + 1) (by omega))))
  | .row [], h, _, _, _, _ => by cases h with | row _ h1 _ => exact absurd rfl h1
  | .row (t :: l), h, rest, hr, n, hn => by
    cases h with
    | row _ _ h1 =>
    simp only [tyToks, List.length_cons, List.length_nil, List.length_append] at hn
    obtain ⟨m, rfl⟩ : ∃ m, n = m + 2 := ⟨n - 2, by omega⟩
    apply ty_of_base _ hr
    have hf := parse_tys t l (h1 t (by simp)) (fun u hu => h1 u (by simp [hu])) rest (m + 1) (by omega)
    obtain ⟨u, us, hu, hk⟩ := tyToks_head t
    have : ∃ vs, sepT (symTok (c% ",")) (tyToksL (t :: l)) = u :: vs := by
      cases l with
      | nil => exact ⟨us, hu⟩
      | cons t2 l => exact ⟨_, by simp only [tyToksL, sepT, hu, List.cons_append]; rfl⟩
    obtain ⟨vs, hv⟩ := this
    simp only [tyToks, tyCst, List.cons_append, List.append_assoc, List.nil_append]
    rw [hv] at hf ⊢
    exact base_row _ _ _ _ _ hk hf
  | .qdigest t, h, rest, hr, n, hn => by
    cases h with
    | qdigest _ h1 =>
    simp only [tyToks, List.length_cons, List.length_nil, List.length_append] at hn
    obtain ⟨m, rfl⟩ : ∃ m, n = m + 3 := ⟨n - 3, by omega⟩
    apply ty_of_base _ hr
    simp only [tyToks, List.cons_append, List.append_assoc, List.nil_append]
    exact base_generic _ _ _ _ _ (by decide)
      (params_ty _ _ _ _ (parse_ty t h1 _ rfl (m + 1) (by omega)))
/-- So are the fields of a row. -/
theorem parse_tys : ∀ (t : Ty) (l : List Ty), Spec.Readable t → (∀ u ∈ l, Spec.Readable u) →
    ∀ (rest : List Tok) (n : Nat), 3 * (sepT (symTok (c% ",")) (tyToksL (t :: l))).length + 1 ≤ n →
    tParser n .fields (sepT (symTok (c% ",")) (tyToksL (t :: l)) ++ symTok (c% ")") :: rest) =
      some (tyCsts (t :: l), rest)
  | t, [], h, _, rest, n, hn => by
    simp only [tyToksL, sepT] at hn ⊢
    obtain ⟨m, rfl⟩ : ∃ m, n = m + 1 := ⟨n - 1, by omega⟩
    exact fields_last _ _ _ _ (parse_ty t h _ rfl m (by omega))
  | t, u :: l, h, hl, rest, n, hn => by
    simp only [tyToksL, sepT, List.length_append, List.length_cons] at hn ⊢
    obtain ⟨m, rfl⟩ : ∃ m, n = m + 1 := ⟨n - 1, by omega⟩
    simp only [List.append_assoc, List.cons_append]
    refine fields_cons _ _ _ _ _ _ (parse_ty t h _ rfl m (by omega)) ?_
    exact parse_tys u l (hl u (by simp)) (fun v hv => hl v (by simp [hv])) rest m
      (by simp only [tyToksL] at hn ⊢; omega)
end

end Treeno
