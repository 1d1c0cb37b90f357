import Verif.Spec.TypeSpelling
import Verif.Lemmas.TypeText
import Verif.Lemmas.Reads
/-!
# Lemmas on the ways of writing a type
-/
set_option autoImplicit false
namespace Treeno
open Spec

/-- A parameter as a value. -/
def argVal : Arg → PVal
  | .num n => .int n
  | .ty t => .dtype t

theorem named_ok {n : Str} {l : List Arg} {t : Ty} (h : NamedType n l t) :
    mkType n (zipFields n (l.map argVal)) = .ok t := by
  have i38 : ∀ p : Nat, p ≤ 38 → (0 : Int) ≤ p ∧ (p : Int) ≤ 38 := fun p h => by omega
  have i12 : ∀ p : Nat, p ≤ 12 → (0 : Int) ≤ p ∧ (p : Int) ≤ 12 := fun p h => by omega
  cases h with
  | simple s l =>
    have : zipFields s.name (l.map argVal) = [] := by
      cases s <;> (unfold zipFields; rw [show ∀ x, fieldsOf x = fieldsOf x from fun _ => rfl]; simp [fieldsOf, Simple.name])
    rw [this]
    cases s <;> rfl
  | decimal => rfl
  | decimal1 p hp => exact if_pos (i38 p hp)
  | decimal2 p s l hp => cases l <;> exact if_pos (i38 p hp)
  | varchar => rfl
  | varchar1 n l => cases l <;> rfl
  | char => rfl
  | char1 n l => cases l <;> rfl
  | time => rfl
  | time1 p hp => exact if_pos (i12 p hp)
  | timestamp => rfl
  | timestamp1 p hp => exact if_pos (i12 p hp)
  | array t l => cases l <;> rfl
  | qdigest t l => cases l <;> rfl
  | map a b l => cases l <;> rfl

theorem named_of {n : Str} {l : List Arg} {t : Ty} (hn : upper n = n)
    (h : mkType n (zipFields n (l.map argVal)) = .ok t) : NamedType n l t := by
  have hm := (mkType_ok_iff _ _ _).1 h
  obtain ⟨e, hr, hd⟩ := hm
  rw [hn] at e
  subst e
  cases t with
  | simple s => exact .simple s l
  | decimal p s =>
    rcases l with _ | ⟨a | a, _ | ⟨b | b, l⟩⟩
    · cases h; exact .decimal
    · have hp : (0 : Int) ≤ a ∧ (a : Int) ≤ 38 := by
        apply Classical.byContradiction
        intro hc
        have : mkType (c% "DECIMAL") [(c% "precision", .int a)] = .error .assertion := if_neg hc
        exact absurd (this.symm.trans h) (by simp)
      have : mkType (c% "DECIMAL") [(c% "precision", .int a)] = .ok (.decimal a 0) := if_pos hp
      cases this.symm.trans h
      exact .decimal1 a (by omega)
    · have h : mkType (c% "DECIMAL") [(c% "precision", .int a), (c% "scale", .int b)] = .ok (.decimal p s) := by
        cases l <;> exact h
      have hp : (0 : Int) ≤ a ∧ (a : Int) ≤ 38 := by
        apply Classical.byContradiction
        intro hc
        have : mkType (c% "DECIMAL") [(c% "precision", .int a), (c% "scale", .int b)] = .error .assertion := if_neg hc
        exact absurd (this.symm.trans h) (by simp)
      have : mkType (c% "DECIMAL") [(c% "precision", .int a), (c% "scale", .int b)] = .ok (.decimal a b) := if_pos hp
      cases this.symm.trans h
      exact .decimal2 a b l (by omega)
    all_goals cases h
  | varchar n =>
    rcases l with _ | ⟨a | a, _ | ⟨b, l⟩⟩ <;> cases h
    · exact .varchar
    · exact .varchar1 a []
    · exact .varchar1 a (b :: l)
  | char n =>
    rcases l with _ | ⟨a | a, _ | ⟨b, l⟩⟩ <;> cases h
    · exact .char
    · exact .char1 a []
    · exact .char1 a (b :: l)
  | time p z =>
    rcases l with _ | ⟨a | a, _ | ⟨b | b, l⟩⟩
    · cases h; exact .time
    · have hp : (0 : Int) ≤ a ∧ (a : Int) ≤ 12 := by
        apply Classical.byContradiction
        intro hc
        have : mkType (c% "TIME") [(c% "precision", .int a)] = .error .assertion := if_neg hc
        exact absurd (this.symm.trans h) (by simp)
      have : mkType (c% "TIME") [(c% "precision", .int a)] = .ok (.time (some a) false) := if_pos hp
      cases this.symm.trans h
      exact .time1 a (by omega)
    all_goals cases h
  | timestamp p z =>
    rcases l with _ | ⟨a | a, _ | ⟨b | b, l⟩⟩
    · cases h; exact .timestamp
    · have hp : (0 : Int) ≤ a ∧ (a : Int) ≤ 12 := by
        apply Classical.byContradiction
        intro hc
        have : mkType (c% "TIMESTAMP") [(c% "precision", .int a)] = .error .assertion := if_neg hc
        exact absurd (this.symm.trans h) (by simp)
      have : mkType (c% "TIMESTAMP") [(c% "precision", .int a)] = .ok (.timestamp (some a) false) := if_pos hp
      cases this.symm.trans h
      exact .timestamp1 a (by omega)
    all_goals cases h
  | interval k =>
    rcases l with _ | ⟨a | a, _ | ⟨b | b, l⟩⟩ <;> cases h
  | array t =>
    rcases l with _ | ⟨a | a, _ | ⟨b, l⟩⟩ <;> cases h
    · exact .array _ []
    · exact .array _ (b :: l)
  | qdigest t =>
    rcases l with _ | ⟨a | a, _ | ⟨b, l⟩⟩ <;> cases h
    · exact .qdigest _ []
    · exact .qdigest _ (b :: l)
  | map a b =>
    rcases l with _ | ⟨a | a, _ | ⟨b | b, _ | ⟨x, l⟩⟩⟩ <;> cases h
    · exact .map _ _ []
    · exact .map _ _ (x :: l)
  | row us =>
    rcases l with _ | ⟨a | a, _ | ⟨b, l⟩⟩ <;> cases h

theorem typeName_ok {n : Str} {a : Tok} (h : TypeName n a) : ∃ x, identText a = .ok x ∧ upper x = n := by
  obtain ⟨k, w⟩ := a
  cases h with
  | word _ h => cases h; exact ⟨_, rfl, rfl⟩
  | keyword _ h _ => cases h; exact ⟨_, rfl, rfl⟩
  | quoted _ h => cases h; exact ⟨_, rfl, rfl⟩

theorem typeName_of {a : Tok} {x : Str} (h : Ident a) (hx : identText a = .ok x) : TypeName (upper x) a := by
  obtain ⟨k, w⟩ := a
  rcases h with h | h | h | h | ⟨h, h'⟩
  all_goals (dsimp only at h; subst h)
  · cases hx; exact .word _ rfl
  · cases hx; exact .quoted _ rfl
  · cases hx
  · cases hx
  · cases hx; exact .keyword _ rfl h'

theorem typeName_ident {n : Str} {a : Tok} (h : TypeName n a) : a.isIdent = true := by
  obtain ⟨k, w⟩ := a
  cases h with
  | word _ h => cases h; rfl
  | keyword _ h h' => cases h; simpa [Tok.isIdent] using h'
  | quoted _ h => cases h; rfl

/-! ## A type that is read is written one of these ways -/

mutual
theorem spells_of : ∀ (c : CTy) (ts : List Tok) (t : Ty), GTy c ts → c.conv = .ok t → Spells ts t
  | .row fs, _, t, hg, h => by
    cases hg with
    | row ha hl hf hr =>
    simp only [CTy.conv] at h
    obtain ⟨us, h1, h2⟩ := bind_ok h
    have := mkType_self (.row us) trivial
    cases this.symm.trans h2
    exact .row ha hl (spellsAll_of fs _ us hf h1) hr
  | .interval f to, _, t, hg, h => by
    have key : ∀ f g : Tok, f.kind = .kw → g.kind = .kw →
        mkType (c% "INTERVAL") [(c% "from_interval", .str f.text), (c% "to_interval", .str g.text)] = .ok t →
        (f = ⟨.kw, c% "YEAR"⟩ ∧ g = ⟨.kw, c% "MONTH"⟩ ∧ t = .interval .yearToMonth) ∨
        (f = ⟨.kw, c% "DAY"⟩ ∧ g = ⟨.kw, c% "SECOND"⟩ ∧ t = .interval .dayToSecond) := by
      rintro ⟨_, f⟩ ⟨_, g⟩ hf hg h
      dsimp only at hf hg
      subst hf hg
      obtain ⟨e, _, hd⟩ := (mkType_ok_iff _ _ _).1 h
      cases t with
      | interval k =>
        have h1 := hd (c% "from_interval")
        have h2 := hd (c% "to_interval")
        have h1 : some (PVal.str k.fromS) = some (PVal.str f) := h1
        have h2 : some (PVal.str k.toS) = some (PVal.str g) := h2
        cases h1; cases h2
        cases k
        · exact .inl ⟨rfl, rfl, rfl⟩
        · exact .inr ⟨rfl, rfl, rfl⟩
      | simple s => cases s <;> cases e
      | _ => cases e
    have ivkw : ∀ {t : Tok}, IvField t → t.kind = .kw := by
      rintro t (h | h | h | h | h | h) <;> exact h.1
    cases hg with
    | interval _ _ => cases h
    | intervalTo ha hf hb hg =>
      rcases key _ _ (ivkw hf) (ivkw hg) h with ⟨rfl, rfl, rfl⟩ | ⟨rfl, rfl, rfl⟩
      · exact .yearToMonth ha hb
      · exact .dayToSecond ha hb
  | .datetime b p z, _, t, hg, h => by
    simp only [CTy.conv] at h
    obtain ⟨us, h1, h2⟩ := bind_ok h
    have hz : ∀ {zs}, GZone z zs → Zoned (z == some true) zs := by
      intro zs hz
      cases hz with
      | none => exact .none
      | without a b c => exact .without a b c
      | with_ a b c => exact .with_ a b c
    have hp : ∀ {ps}, GPrec p ps → ∃ q, Precision q ps ∧
        t = if b then .timestamp (q.map Int.ofNat) (z == some true) else .time (q.map Int.ofNat) (z == some true) := by
      intro ps hp
      cases hp with
      | none =>
        cases h1
        refine ⟨none, .none, ?_⟩
        cases b <;> (cases h2; rfl)
      | some hl hp hr =>
        rename_i p ts
        cases p with
        | ty c =>
          simp only [CTParam.convOpt, CTParam.conv] at h1
          obtain ⟨d, h3, h4⟩ := bind_ok h1
          obtain ⟨d', h5, h6⟩ := bind_ok h3
          cases h6; cases h4
          cases b <;> cases h2
        | int n =>
          cases hp with
          | int hn =>
          cases h1
          obtain ⟨e, hr', _⟩ := (mkType_ok_iff _ _ _).1 h2
          have hlt : digitsVal n.text ≤ 12 := by
            apply Classical.byContradiction
            intro hc
            have hc' : ¬ ((0 : Int) ≤ digitsVal n.text ∧ (digitsVal n.text : Int) ≤ 12) := by omega
            cases b
            · have : mkType (c% "TIME") [(c% "precision", .int (digitsVal n.text)), (c% "timezone", .bool (z == some true))] =
                .error .assertion := if_neg hc'
              exact absurd (this.symm.trans h2) (by simp)
            · have : mkType (c% "TIMESTAMP") [(c% "precision", .int (digitsVal n.text)), (c% "timezone", .bool (z == some true))] =
                .error .assertion := if_neg hc'
              exact absurd (this.symm.trans h2) (by simp)
          refine ⟨some (digitsVal n.text), .some hl hn hlt hr, ?_⟩
          have hc' : ((0 : Int) ≤ digitsVal n.text ∧ (digitsVal n.text : Int) ≤ 12) := by omega
          cases b
          · have : mkType (c% "TIME") [(c% "precision", .int (digitsVal n.text)), (c% "timezone", .bool (z == some true))] =
                .ok (.time (some (digitsVal n.text)) (z == some true)) := if_pos hc'
            cases this.symm.trans h2
            rfl
          · have : mkType (c% "TIMESTAMP") [(c% "precision", .int (digitsVal n.text)), (c% "timezone", .bool (z == some true))] =
                .ok (.timestamp (some (digitsVal n.text)) (z == some true)) := if_pos hc'
            cases this.symm.trans h2
            rfl
    cases hg with
    | timestamp ha hg hz' =>
      obtain ⟨q, h1, rfl⟩ := hp hg
      exact .timestamp ha h1 (hz hz')
    | time ha hg hz' =>
      obtain ⟨q, h1, rfl⟩ := hp hg
      exact .time ha h1 (hz hz')
  | .doublePrecision, _, t, hg, h => by
    cases h
    cases hg with
    | double ha hb => exact .double ha hb
  | .legacyArray _, _, _, _, h => by cases h
  | .legacyMap _ _, _, _, _, h => by cases h
  | .arrayOf c n, _, t, hg, h => by
    cases n with
    | some n => cases h
    | none =>
      cases hg with
      | arrayOf hc ha =>
      simp only [CTy.conv] at h
      obtain ⟨d, h1, h2⟩ := bind_ok h
      have := mkType_self (.array d) trivial
      cases this.symm.trans h2
      exact .arrayOf (spells_of c _ d hc h1) ha
  | .generic n ps, _, t, hg, h => by
    simp only [CTy.conv] at h
    obtain ⟨vs, h1, h2⟩ := bind_ok h
    obtain ⟨nm, h3, h4⟩ := bind_ok h2
    cases hg with
    | name ha =>
      cases h1
      exact .name (typeName_of ha h3) (named_of (l := []) (upper_upper _) h4)
    | generic ha hl hp hr =>
      obtain ⟨args, hs, rfl⟩ := spellsArgs_of ps _ vs hp h1
      exact .params (typeName_of ha h3) hl hs hr (named_of (upper_upper _) h4)
theorem spellsAll_of : ∀ (fs : List CField) (ts : List Tok) (us : List Ty), GFields fs ts →
    CField.convs fs = .ok us → SpellsAll ts us
  | [], _, _, hg, _ => by cases hg
  | f :: fs, _, us, hg, h => by
    simp only [CField.convs] at h
    obtain ⟨d, h1, h2⟩ := bind_ok h
    obtain ⟨ds, h3, h4⟩ := bind_ok h2
    cases h4
    cases hg with
    | one hf => cases h3; exact .one (spellsField_of f _ d hf h1)
    | more hf hm hg => exact .more (spellsField_of f _ d hf h1) hm (spellsAll_of fs _ ds hg h3)
theorem spellsField_of : ∀ (f : CField) (ts : List Tok) (t : Ty), GField f ts → f.conv = .ok t → Spells ts t
  | .mk (some _) _, _, _, _, h => by cases h
  | .mk none c, _, t, hg, h => by
    cases hg with
    | unnamed hg => exact spells_of c _ t hg h
theorem spellsArg_of : ∀ (p : CTParam) (ts : List Tok) (v : PVal), GParam p ts → p.conv = .ok v →
    ∃ a, SpellsArg ts a ∧ v = argVal a
  | .int n, _, v, hg, h => by
    cases h
    cases hg with
    | int hn => exact ⟨_, .num hn, rfl⟩
  | .ty c, _, v, hg, h => by
    cases hg with
    | ty hg =>
    simp only [CTParam.conv] at h
    obtain ⟨d, h1, h2⟩ := bind_ok h
    cases h2
    exact ⟨_, .ty (spells_of c _ d hg h1), rfl⟩
theorem spellsArgs_of : ∀ (ps : List CTParam) (ts : List Tok) (vs : List PVal), GParams ps ts →
    CTParam.convs ps = .ok vs → ∃ as, SpellsArgs ts as ∧ vs = as.map argVal
  | [], _, _, hg, _ => by cases hg
  | f :: fs, _, us, hg, h => by
    simp only [CTParam.convs] at h
    obtain ⟨d, h1, h2⟩ := bind_ok h
    obtain ⟨ds, h3, h4⟩ := bind_ok h2
    cases h4
    cases hg with
    | one hf =>
      cases h3
      obtain ⟨a, ha, rfl⟩ := spellsArg_of f _ d hf h1
      exact ⟨[a], .one ha, rfl⟩
    | more hf hm hg =>
      obtain ⟨a, ha, rfl⟩ := spellsArg_of f _ d hf h1
      obtain ⟨as, hs, rfl⟩ := spellsArgs_of fs _ ds hg h3
      exact ⟨a :: as, .more ha hm hs, rfl⟩
end

/-! ## A type written one of these ways is read -/

theorem K_isKw {k : Str} {t : Tok} (h : K k t) : t.isKw k = true := by
  simpa [Tok.isKw, K] using h

/-- What may follow a type: ARRAY any number of times, then nothing, a comma or a closing
parenthesis. -/
inductive After : List Tok → Prop
  | stop {ts : List Tok} : TyStop ts = true → After ts
  | array {a : Tok} {ts : List Tok} : K (c% "ARRAY") a → After ts → After (a :: ts)

/-- Two different keywords. -/
theorem K_ne {k k' : Str} {t : Tok} (h : K k t) (hk : k ≠ k') : t.isKw k' = false := by
  obtain ⟨a, b⟩ := h
  simp [Tok.isKw, a, b, hk]

theorem K_sym {k s : Str} {t : Tok} (h : K k t) : t.isSym s = false := by
  obtain ⟨a, b⟩ := h
  simp [Tok.isSym, a]

theorem K_ident {k : Str} {t : Tok} (h : K k t) : t.isIdent = nonReserved.contains k := by
  obtain ⟨a, b⟩ := h
  simp [Tok.isIdent, a, b]

theorem after_cases {ts : List Tok} (h : After ts) :
    ts = [] ∨ (∃ r, ts = symTok (c% ",") :: r) ∨ (∃ r, ts = symTok (c% ")") :: r) ∨
      ∃ a r, ts = a :: r ∧ K (c% "ARRAY") a ∧ After r := by
  cases h with
  | stop h =>
    rcases tyStop_cases h with h | h | h
    · exact .inl h
    · exact .inr (.inl h)
    · exact .inr (.inr (.inl h))
  | array ha h => exact .inr (.inr (.inr ⟨_, _, rfl, ha, h⟩))

theorem after_sym {ts : List Tok} (h : After ts) {s : Str} (hs : s ≠ c% ",") (hs' : s ≠ c% ")") :
    nextSym s ts = false ∧ sym s ts = none := by
  rcases after_cases h with rfl | ⟨r, rfl⟩ | ⟨r, rfl⟩ | ⟨a, r, rfl, ha, _⟩
  · exact ⟨rfl, rfl⟩
  · have : (symTok (c% ",")).isSym s = false := by simpa [Tok.isSym] using fun e => hs e.symm
    simp [nextSym, sym, this]
  · have : (symTok (c% ")")).isSym s = false := by simpa [Tok.isSym] using fun e => hs' e.symm
    simp [nextSym, sym, this]
  · simp [nextSym, sym, K_sym ha]

theorem after_kw {ts : List Tok} (h : After ts) {k : Str} (hk : c% "ARRAY" ≠ k) :
    nextKw k ts = false ∧ kw k ts = none := by
  rcases after_cases h with rfl | ⟨r, rfl⟩ | ⟨r, rfl⟩ | ⟨a, r, rfl, ha, _⟩
  · exact ⟨rfl, rfl⟩
  · exact ⟨rfl, rfl⟩
  · exact ⟨rfl, rfl⟩
  · simp [nextKw, kw, K_ne ha hk]

theorem after_iv {ts : List Tok} (h : After ts) : nextIvField ts = false := by
  rcases after_cases h with rfl | ⟨r, rfl⟩ | ⟨r, rfl⟩ | ⟨a, r, rfl, ha, _⟩
  · rfl
  · rfl
  · rfl
  · obtain ⟨h1, h2⟩ := ha
    show (a.kind == Kind.kw && intervalFields.contains (upper a.text)) = false
    rw [h1, h2]; rfl

theorem zone_read {z : Bool} {zs : List Tok} (h : Zoned z zs) :
    ∃ y, (y == some true) = z ∧ ∀ rest, After rest → pZone (zs ++ rest) = some (y, rest) := by
  cases h with
  | none =>
    refine ⟨none, rfl, fun rest hr => ?_⟩
    simp [pZone, (after_kw hr (k := c% "WITH") (by decide)).2, (after_kw hr (k := c% "WITHOUT") (by decide)).2]
  | without ha hb hc =>
    refine ⟨some false, rfl, fun rest hr => ?_⟩
    simp [pZone, kw, K_isKw ha, K_isKw hb, K_isKw hc, K_ne ha (k' := c% "WITH") (by decide)]
  | with_ ha hb hc =>
    refine ⟨some true, rfl, fun rest hr => ?_⟩
    simp [pZone, kw, K_isKw ha, K_isKw hb, K_isKw hc]

theorem zoned_sym {z : Bool} {zs : List Tok} (h : Zoned z zs) {rest : List Tok} (hr : After rest) {s : Str}
    (hs : s ≠ c% ",") (hs' : s ≠ c% ")") : sym s (zs ++ rest) = none := by
  cases h with
  | none => exact (after_sym hr hs hs').2
  | without ha _ _ => simp [sym, K_sym ha]
  | with_ ha _ _ => simp [sym, K_sym ha]

/-- The parameter a precision gives. -/
def precVals : Option Nat → List (Str × PVal)
  | none => []
  | some n => [(c% "precision", .int n)]

theorem precision_read {p : Option Nat} {ps : List Tok} (h : Precision p ps) :
    ∃ q, CTParam.convOpt q = .ok (precVals p) ∧
      ∀ (r : TRec) (rest : List Tok), sym (c% "(") rest = none → pPrecision r (ps ++ rest) = some (q, rest) := by
  cases h with
  | none => exact ⟨none, rfl, fun r rest hr => by simp [pPrecision, hr]⟩
  | some hl hn hle hr' =>
    rename_i l n r'
    cases hl; cases hr'
    refine ⟨some (.int n), rfl, fun r rest hr => ?_⟩
    simp [pPrecision, pTypeParam, pKind, sym, Tok.isSym, hn]

theorem precision_le {n : Nat} {ps : List Tok} (h : Precision (some n) ps) : n ≤ 12 := by
  cases h with
  | some _ _ hle _ => exact hle

theorem base_datetime (r : TRec) {k : Str} {b : Bool} {a : Tok} (ha : K k a)
    (hk : (k = c% "TIMESTAMP" ∧ b = true) ∨ (k = c% "TIME" ∧ b = false)) (ts : List Tok) :
    pTypeBase r (a :: ts) =
      (pPrecision r ts).bind (fun x => (pZone x.2).bind (fun y => some (.datetime b x.1 y.1, y.2))) := by
  rcases hk with ⟨rfl, rfl⟩ | ⟨rfl, rfl⟩
  · simp only [pTypeBase, K_ne ha (k' := c% "ROW") (by decide), K_ne ha (k' := c% "INTERVAL") (by decide),
      K_isKw ha, Bool.false_and, Bool.true_or, if_true, Bool.false_eq_true, if_false]
    rfl
  · simp only [pTypeBase, K_ne ha (k' := c% "ROW") (by decide), K_ne ha (k' := c% "INTERVAL") (by decide),
      K_isKw ha, K_ne ha (k' := c% "TIMESTAMP") (by decide), Bool.false_and, Bool.false_or, if_true, Bool.false_eq_true, if_false]
    rfl

/-- Reads a type: from reading the rest of the loop over ARRAY to reading the whole type. -/
def ReadAs (ts : List Tok) (t : Ty) : Prop :=
  ∃ c : CTy, c.conv = .ok t ∧ ∀ rest, After rest → ∀ n x, tParser n (.arrays c) rest = some x →
    tParser (n + 3 * ts.length) .ty (ts ++ rest) = some x

theorem ReadAs.read {ts : List Tok} {t : Ty} (h : ReadAs ts t) : ∃ c : CTy, c.conv = .ok t ∧
    ∀ rest, TyStop rest = true → ∀ n, 3 * ts.length + 1 ≤ n → tParser n .ty (ts ++ rest) = some (c, rest) := by
  obtain ⟨c, hc, h⟩ := h
  refine ⟨c, hc, fun rest hr n hn => ?_⟩
  exact tParser_some (h rest (.stop hr) 1 _ (arrays_stop 0 c rest hr)) (by omega)

/-- From a successful base. -/
theorem readAs_of_base {ts : List Tok} {t : Ty} {c : CTy} (hc : c.conv = .ok t) (hne : ts ≠ [])
    (h : ∀ rest, After rest → ∀ m, 3 * ts.length ≤ m + 1 → pTypeBase (tParser m) (ts ++ rest) = some (c, rest)) :
    ReadAs ts t := by
  refine ⟨c, hc, fun rest hr n x hx => ?_⟩
  have hl : 1 ≤ ts.length := by
    cases ts with
    | nil => exact absurd rfl hne
    | cons _ _ => simp
  obtain ⟨m, hm⟩ : ∃ m, n + 3 * ts.length = m + 1 := ⟨n + 3 * ts.length - 1, by omega⟩
  rw [hm]
  show Option.bind (β := CTy × List Tok) (pTypeBase (tParser m) (ts ++ rest))
    (fun x => tParser m (.arrays x.1) x.2) = _
  rw [h rest hr m (by omega)]
  exact tParser_some hx (by omega)

theorem readAs_datetime {k : Str} {b : Bool} {a : Tok} {p : Option Nat} {ps zs : List Tok} {z : Bool} (ha : K k a)
    (hk : (k = c% "TIMESTAMP" ∧ b = true) ∨ (k = c% "TIME" ∧ b = false)) (hp : Precision p ps) (hz : Zoned z zs) :
    ReadAs (a :: (ps ++ zs)) (if b then .timestamp (p.map Int.ofNat) z else .time (p.map Int.ofNat) z) := by
  obtain ⟨y, hy, hzr⟩ := zone_read hz
  obtain ⟨q, hq, hpr⟩ := precision_read hp
  refine readAs_of_base (c := .datetime b q y) ?_ (by simp) ?_
  · simp only [CTy.conv, hq]
    subst hy
    rcases hk with ⟨_, rfl⟩ | ⟨_, rfl⟩
    · cases p with
      | none => rfl
      | some n =>
        have := precision_le hp
        exact if_pos (c := (0 : Int) ≤ (n : Int) ∧ (n : Int) ≤ 12) ⟨by omega, by omega⟩
    · cases p with
      | none => rfl
      | some n =>
        have := precision_le hp
        exact if_pos (c := (0 : Int) ≤ (n : Int) ∧ (n : Int) ≤ 12) ⟨by omega, by omega⟩
  · intro rest hr m _
    rw [List.cons_append, base_datetime _ ha hk, List.append_assoc,
      hpr _ _ (zoned_sym hz hr (s := c% "(") (by decide) (by decide))]
    show (pZone (zs ++ rest)).bind _ = _
    rw [hzr rest hr]
    rfl

theorem typeName_kw {n k : Str} {a : Tok} (h : TypeName n a) (hk : a.isKw k = true) : n = k := by
  obtain ⟨h1, h2⟩ := isKw_K hk
  cases h with
  | word _ h => rw [h] at h1; cases h1
  | keyword _ h _ => exact h2
  | quoted _ h => rw [h] at h1; cases h1

theorem named_time {l : List Arg} {t : Ty} (h : NamedType (c% "TIME") l t) :
    (l = [] ∧ t = .time none false) ∨ ∃ p : Nat, p ≤ 12 ∧ l = [.num p] ∧ t = .time (some p) false := by
  generalize e : c% "TIME" = n at h
  cases h with
  | simple s l => cases s <;> cases e
  | time => exact .inl ⟨rfl, rfl⟩
  | time1 p hp => exact .inr ⟨p, hp, rfl, rfl⟩
  | _ => cases e

theorem named_timestamp {l : List Arg} {t : Ty} (h : NamedType (c% "TIMESTAMP") l t) :
    (l = [] ∧ t = .timestamp none false) ∨ ∃ p : Nat, p ≤ 12 ∧ l = [.num p] ∧ t = .timestamp (some p) false := by
  generalize e : c% "TIMESTAMP" = n at h
  cases h with
  | simple s l => cases s <;> cases e
  | timestamp => exact .inl ⟨rfl, rfl⟩
  | timestamp1 p hp => exact .inr ⟨p, hp, rfl, rfl⟩
  | _ => cases e

theorem named_row {l : List Arg} {t : Ty} (h : NamedType (c% "ROW") l t) : False := by
  generalize e : c% "ROW" = n at h
  cases h with
  | simple s l => cases s <;> cases e
  | _ => cases e

theorem generic_conv {a : Tok} {n : Str} {ps : List CTParam} {args : List Arg} {t : Ty} (ha : TypeName n a)
    (hp : CTParam.convs ps = .ok (args.map argVal)) (ht : NamedType n args t) : (CTy.generic a ps).conv = .ok t := by
  obtain ⟨x, hx, rfl⟩ := typeName_ok ha
  simp only [CTy.conv, hp, hx]
  exact named_ok ht

/-- A name that is not followed by parameters. -/
theorem readAs_name {a : Tok} {n : Str} {t : Ty} (ha : TypeName n a) (ht : NamedType n [] t) : ReadAs [a] t := by
  by_cases h1 : a.isKw (c% "TIMESTAMP") = true
  · cases typeName_kw ha h1
    rcases named_timestamp ht with ⟨_, rfl⟩ | ⟨p, _, h, _⟩
    · exact readAs_datetime (isKw_K h1) (.inl ⟨rfl, rfl⟩) .none .none
    · cases h
  by_cases h2 : a.isKw (c% "TIME") = true
  · cases typeName_kw ha h2
    rcases named_time ht with ⟨_, rfl⟩ | ⟨p, _, h, _⟩
    · exact readAs_datetime (isKw_K h2) (.inr ⟨rfl, rfl⟩) .none .none
    · cases h
  refine readAs_of_base (c := .generic a []) (generic_conv (args := []) ha rfl ht) (by simp) ?_
  intro rest hr m _
  simp only [List.cons_append, List.nil_append, pTypeBase, (after_sym hr (s := c% "(") (by decide) (by decide)).1,
    (after_sym hr (s := c% "<") (by decide) (by decide)).1, after_iv hr, (after_kw hr (k := c% "PRECISION") (by decide)).1,
    h1, h2, typeName_ident ha, Bool.and_false, Bool.false_and, Bool.or_self, if_true, Bool.false_eq_true, if_false,
    (after_sym hr (s := c% "(") (by decide) (by decide)).2]

/-- A name with parameters. -/
theorem readAs_params {a : Tok} {n : Str} {t : Ty} {ts : List Tok} {args : List Arg} {ps : List CTParam}
    (ha : TypeName n a) (ht : NamedType n args t) (hc : CTParam.convs ps = .ok (args.map argVal))
    (hs : SpellsArgs ts args)
    (h : ∀ rest m, 3 * ts.length + 2 ≤ m → tParser m .params (ts ++ symTok (c% ")") :: rest) = some (ps, rest)) :
    ReadAs (a :: symTok (c% "(") :: (ts ++ [symTok (c% ")")])) t := by
  have one : ∀ p : Nat, SpellsArgs ts [.num p] → p ≤ 12 →
      Precision (some p) (symTok (c% "(") :: (ts ++ [symTok (c% ")")])) := by
    intro p hs hp
    cases hs with
    | one h =>
      cases h with
      | num hn => exact .some rfl hn hp rfl
    | more _ _ h => cases h
  by_cases h1 : a.isKw (c% "TIMESTAMP") = true
  · cases typeName_kw ha h1
    rcases named_timestamp ht with ⟨rfl, _⟩ | ⟨p, hp, rfl, rfl⟩
    · cases hs
    · simpa using readAs_datetime (isKw_K h1) (.inl ⟨rfl, rfl⟩) (one p hs hp) .none
  by_cases h2 : a.isKw (c% "TIME") = true
  · cases typeName_kw ha h2
    rcases named_time ht with ⟨rfl, _⟩ | ⟨p, hp, rfl, rfl⟩
    · cases hs
    · simpa using readAs_datetime (isKw_K h2) (.inr ⟨rfl, rfl⟩) (one p hs hp) .none
  have h3 : a.isKw (c% "ROW") = false := by
    cases h3 : a.isKw (c% "ROW") with
    | false => rfl
    | true =>
      cases typeName_kw ha h3
      exact (named_row ht).elim
  refine readAs_of_base (c := .generic a ps) (generic_conv ha hc ht) (by simp) ?_
  intro rest hr m hm
  simp only [List.length_cons, List.length_append, List.length_nil] at hm
  have e : pTypeBase (tParser m) ((a :: symTok (c% "(") :: (ts ++ [symTok (c% ")")])) ++ rest) =
      (tParser m .params (ts ++ symTok (c% ")") :: rest)).bind (fun x => some (.generic a x.1, x.2)) := by
    simp only [List.cons_append, List.append_assoc, List.nil_append, pTypeBase, h1, h2, h3, typeName_ident ha,
      Bool.false_and, Bool.or_self, if_true, Bool.false_eq_true, if_false,
      show nextIvField (symTok (c% "(") :: (ts ++ symTok (c% ")") :: rest)) = false from rfl,
      show nextKw (c% "PRECISION") (symTok (c% "(") :: (ts ++ symTok (c% ")") :: rest)) = false from rfl,
      show nextSym (c% "<") (symTok (c% "(") :: (ts ++ symTok (c% ")") :: rest)) = false from rfl,
      show sym (c% "(") (symTok (c% "(") :: (ts ++ symTok (c% ")") :: rest)) = some (ts ++ symTok (c% ")") :: rest) from rfl,
      Bool.and_false]
    rfl
  rw [e, h rest m (by omega)]
  rfl

/-! ### The first tokens -/

theorem named_none (u : Tok) (us : List Tok) (hu : u.isIdent = false) (t : Tok) : namedField (t :: u :: us) = false := by
  simp [namedField, hu]

theorem typeName_notInt {n : Str} {a : Tok} (h : TypeName n a) : (a.kind == Kind.int) = false := by
  cases h with
  | word _ h => rw [h]; rfl
  | keyword _ h _ => rw [h]; rfl
  | quoted _ h => rw [h]; rfl

theorem K_notInt {n : Str} {a : Tok} (h : K n a) : (a.kind == Kind.int) = false := by
  rw [h.1]; rfl

/-- A type does not start with a number. -/
theorem spells_head {ts : List Tok} {t : Ty} (h : Spells ts t) :
    ∃ u us, ts = u :: us ∧ (u.kind == Kind.int) = false := by
  match ts, t, h with
  | _, _, .name ha _ => exact ⟨_, _, rfl, typeName_notInt ha⟩
  | _, _, .params ha _ _ _ _ => exact ⟨_, _, rfl, typeName_notInt ha⟩
  | _, _, .double ha _ => exact ⟨_, _, rfl, K_notInt ha⟩
  | _, _, .time ha _ _ => exact ⟨_, _, rfl, K_notInt ha⟩
  | _, _, .timestamp ha _ _ => exact ⟨_, _, rfl, K_notInt ha⟩
  | _, _, .yearToMonth ha _ => exact ⟨_, _, rfl, K_notInt ha⟩
  | _, _, .dayToSecond ha _ => exact ⟨_, _, rfl, K_notInt ha⟩
  | _, _, .row ha _ _ _ => exact ⟨_, _, rfl, K_notInt ha⟩
  | _, _, .arrayOf h _ =>
    obtain ⟨u, us, rfl, hu⟩ := spells_head h
    exact ⟨u, us ++ [_], rfl, hu⟩

theorem named_after (a : Tok) {rest : List Tok} (hr : After rest) : namedField (a :: rest) = false := by
  rcases after_cases hr with rfl | ⟨r, rfl⟩ | ⟨r, rfl⟩ | ⟨b, r, rfl, hb, hr'⟩
  · rfl
  · exact named_none _ _ rfl _
  · exact named_none _ _ rfl _
  · simp [namedField, K_isKw hb, (after_sym hr' (s := c% "(") (by decide) (by decide)).1,
      (after_sym hr' (s := c% "<") (by decide) (by decide)).1]

theorem named_datetime {k : Str} {a : Tok} {p : Option Nat} {ps zs : List Tok} {z : Bool} (ha : K k a)
    (hk : k = c% "TIMESTAMP" ∨ k = c% "TIME") (hp : Precision p ps) (hz : Zoned z zs) {rest : List Tok} (hr : After rest) :
    namedField (a :: (ps ++ zs) ++ rest) = false := by
  cases hp with
  | some hl _ _ _ => cases hl; exact named_none _ _ rfl _
  | none =>
    cases hz with
    | none => exact named_after a hr
    | with_ hb _ _ => exact named_none _ _ ((K_ident hb).trans (by decide)) _
    | without hb _ _ =>
      rcases hk with rfl | rfl <;> simp [namedField, K_isKw ha, K_isKw hb]

/-- A type does not start like a named field. -/
theorem spells_unnamed {ts : List Tok} {t : Ty} (h : Spells ts t) {rest : List Tok} (hr : After rest) :
    namedField (ts ++ rest) = false := by
  match ts, t, h with
  | _, _, .name ha _ => exact named_after _ hr
  | _, _, .params ha hl _ _ _ => cases hl; exact named_none _ _ rfl _
  | _, _, .double ha hb => simp [namedField, K_isKw ha, K_isKw hb]
  | _, _, .time ha hp hz => exact named_datetime ha (.inr rfl) hp hz hr
  | _, _, .timestamp ha hp hz => exact named_datetime ha (.inl rfl) hp hz hr
  | _, _, .yearToMonth ha hb =>
    simp [namedField, K_isKw ha, show Tok.isIvField ⟨.kw, c% "YEAR"⟩ = true from rfl]
  | _, _, .dayToSecond ha hb =>
    simp [namedField, K_isKw ha, show Tok.isIvField ⟨.kw, c% "DAY"⟩ = true from rfl]
  | _, _, .row ha hl _ _ => cases hl; exact named_none _ _ rfl _
  | _, _, .arrayOf h ha =>
    rw [List.append_assoc]
    exact spells_unnamed h (.array ha hr)

/-! ### Reading -/

theorem readAs_arrayOf {ts : List Tok} {t : Ty} {a : Tok} (h : ReadAs ts t) (ha : K (c% "ARRAY") a) :
    ReadAs (ts ++ [a]) (.array t) := by
  obtain ⟨c, hc, h⟩ := h
  refine ⟨.arrayOf c none, ?_, fun rest hr n x hx => ?_⟩
  · simp only [CTy.conv, hc]
    exact mkType_self (.array t) trivial
  · rw [List.append_assoc]
    have h1 : tParser (n + 1) (.arrays c) ([a] ++ rest) = some x := by
      show pArrays (tParser n) c (a :: rest) = some x
      simp only [pArrays, kw, K_isKw ha, if_true, (after_sym hr (s := c% "[") (by decide) (by decide)).2]
      exact hx
    refine tParser_some (h _ (.array ha hr) _ _ h1) ?_
    simp only [List.length_append, List.length_cons, List.length_nil]
    omega

mutual
theorem readAs_of : ∀ {ts : List Tok} {t : Ty}, Spells ts t → ReadAs ts t
  | _, _, .name ha ht => readAs_name ha ht
  | _, _, .params ha hl hs hr ht => by
    cases hl; cases hr
    obtain ⟨ps, hc, h⟩ := readArgs_of hs
    exact readAs_params ha ht hc hs h
  | _, _, .double (a := a) (b := b) ha hb => by
    refine readAs_of_base (c := .doublePrecision) rfl (by simp) ?_
    intro rest _ m _
    simp [pTypeBase, K_ne ha (k' := c% "ROW") (by decide), K_ne ha (k' := c% "INTERVAL") (by decide),
      K_ne ha (k' := c% "TIMESTAMP") (by decide), K_ne ha (k' := c% "TIME") (by decide), K_isKw ha, nextKw, K_isKw hb]
  | _, _, .time ha hp hz => readAs_datetime ha (.inr ⟨rfl, rfl⟩) hp hz
  | _, _, .timestamp ha hp hz => readAs_datetime ha (.inl ⟨rfl, rfl⟩) hp hz
  | _, _, .yearToMonth (a := a) (b := b) ha hb => by
    refine readAs_of_base (c := .interval ⟨.kw, c% "YEAR"⟩ (some ⟨.kw, c% "MONTH"⟩)) rfl (by simp) ?_
    intro rest _ m _
    simp [pTypeBase, K_ne ha (k' := c% "ROW") (by decide), K_isKw ha, nextIvField, pIvField, pIvTo, kw, K_isKw hb,
      show Tok.isIvField ⟨.kw, c% "YEAR"⟩ = true from rfl, show Tok.isIvField ⟨.kw, c% "MONTH"⟩ = true from rfl]
  | _, _, .dayToSecond (a := a) (b := b) ha hb => by
    refine readAs_of_base (c := .interval ⟨.kw, c% "DAY"⟩ (some ⟨.kw, c% "SECOND"⟩)) rfl (by simp) ?_
    intro rest _ m _
    simp [pTypeBase, K_ne ha (k' := c% "ROW") (by decide), K_isKw ha, nextIvField, pIvField, pIvTo, kw, K_isKw hb,
      show Tok.isIvField ⟨.kw, c% "DAY"⟩ = true from rfl, show Tok.isIvField ⟨.kw, c% "SECOND"⟩ = true from rfl]
  | _, _, .row (a := a) (ts := ts) (us := us) ha hl hs hr => by
    cases hl; cases hr
    obtain ⟨fs, hc, h⟩ := readAll_of hs
    obtain ⟨u, vs, rfl, hu⟩ : ∃ u vs, ts = u :: vs ∧ (u.kind == Kind.int) = false := by
      cases hs with
      | one h1 => exact spells_head h1
      | more h1 _ _ =>
        obtain ⟨u, vs, rfl, hu⟩ := spells_head h1
        exact ⟨u, _, rfl, hu⟩
    refine readAs_of_base (c := .row fs) ?_ (by simp) ?_
    · simp only [CTy.conv, hc]
      exact mkType_self (.row us) trivial
    · intro rest _ m hm
      simp only [List.length_cons, List.length_append, List.length_nil] at hm
      have e : pTypeBase (tParser m) ((a :: symTok (c% "(") :: (u :: vs ++ [symTok (c% ")")])) ++ rest) =
          (tParser m .fields (u :: vs ++ symTok (c% ")") :: rest)).bind (fun x => some (.row x.1, x.2)) := by
        simp only [List.cons_append, List.append_assoc, List.nil_append, pTypeBase, K_isKw ha, nextSym,
          show Tok.isSym (symTok (c% "(")) (c% "(") = true from rfl, secondInt, hu, Bool.not_false, Bool.and_self, if_true,
          List.drop_succ_cons, List.drop_zero]
        rfl
      rw [e, h rest m (by simp only [List.length_cons]; omega)]
      rfl
  | _, _, .arrayOf h ha => readAs_arrayOf (readAs_of h) ha
theorem readArg_of : ∀ {ts : List Tok} {a : Arg}, SpellsArg ts a → ∃ p : CTParam, p.conv = .ok (argVal a) ∧
    ∀ rest, TyStop rest = true → ∀ n, 3 * ts.length + 1 ≤ n → pTypeParam (tParser n) (ts ++ rest) = some (p, rest)
  | _, _, .num (n := n) hn => ⟨.int n, rfl, fun rest _ m _ => by simp [pTypeParam, pKind, hn]⟩
  | _, _, .ty (ts := ts) h => by
    obtain ⟨c, hc, hr⟩ := (readAs_of h).read
    refine ⟨.ty c, by simp only [CTParam.conv, hc]; rfl, fun rest hs n hn => ?_⟩
    have h1 := hr rest hs n hn
    obtain ⟨u, us, rfl, hu⟩ := spells_head h
    unfold pTypeParam pKind
    simp only [List.cons_append, hu, Bool.false_eq_true, if_false]
    rw [List.cons_append] at h1
    simp only [h1]
    rfl
theorem readArgs_of : ∀ {ts : List Tok} {as : List Arg}, SpellsArgs ts as → ∃ ps : List CTParam,
    CTParam.convs ps = .ok (as.map argVal) ∧
    ∀ rest n, 3 * ts.length + 2 ≤ n → tParser n .params (ts ++ symTok (c% ")") :: rest) = some (ps, rest)
  | _, _, .one (ts := ts) h => by
    obtain ⟨p, hc, hr⟩ := readArg_of h
    refine ⟨[p], by simp only [CTParam.convs, hc]; rfl, fun rest n hn => ?_⟩
    obtain ⟨m, rfl⟩ : ∃ m, n = m + 1 := ⟨n - 1, by omega⟩
    show (pTypeParam (tParser m) _).bind _ = _
    rw [hr _ rfl m (by omega)]
    rfl
  | _, _, .more (ts := ts) (us := us) h hm hs => by
    cases hm
    obtain ⟨p, hc, hr⟩ := readArg_of h
    obtain ⟨ps, hcs, hrs⟩ := readArgs_of hs
    refine ⟨p :: ps, by simp only [CTParam.convs, hc, hcs]; rfl, fun rest n hn => ?_⟩
    simp only [List.length_cons, List.length_append] at hn
    obtain ⟨m, rfl⟩ : ∃ m, n = m + 1 := ⟨n - 1, by omega⟩
    rw [List.append_assoc]
    show (pTypeParam (tParser m) _).bind _ = _
    rw [hr _ rfl m (by omega)]
    show (tParser m .params (us ++ symTok (c% ")") :: rest)).bind (fun x => some (_ :: x.1, x.2)) = _
    rw [hrs rest m (by omega)]
    rfl
theorem readAll_of : ∀ {ts : List Tok} {us : List Ty}, SpellsAll ts us → ∃ fs : List CField,
    CField.convs fs = .ok us ∧
    ∀ rest n, 3 * ts.length + 2 ≤ n → tParser n .fields (ts ++ symTok (c% ")") :: rest) = some (fs, rest)
  | _, _, .one (ts := ts) h => by
    obtain ⟨c, hc, hr⟩ := (readAs_of h).read
    refine ⟨[.mk none c], by simp only [CField.convs, CField.conv, hc]; rfl, fun rest n hn => ?_⟩
    obtain ⟨m, rfl⟩ : ∃ m, n = m + 1 := ⟨n - 1, by omega⟩
    show (pField (tParser m) _).bind _ = _
    unfold pField
    rw [spells_unnamed h (.stop rfl), hr _ rfl m (by omega)]
    rfl
  | _, _, .more (ts := ts) (us := us) h hm hs => by
    cases hm
    obtain ⟨c, hc, hr⟩ := (readAs_of h).read
    obtain ⟨fs, hcs, hrs⟩ := readAll_of hs
    refine ⟨.mk none c :: fs, by simp only [CField.convs, CField.conv, hc, hcs]; rfl, fun rest n hn => ?_⟩
    simp only [List.length_cons, List.length_append] at hn
    obtain ⟨m, rfl⟩ : ∃ m, n = m + 1 := ⟨n - 1, by omega⟩
    rw [List.append_assoc]
    show (pField (tParser m) _).bind _ = _
    unfold pField
    rw [List.cons_append, spells_unnamed h (.stop rfl), hr _ rfl m (by omega)]
    show (tParser m .fields (us ++ symTok (c% ")") :: rest)).bind (fun x => some (_ :: x.1, x.2)) = _
    rw [hrs rest m (by omega)]
    rfl
end

/-- The tokens of a type in any spelling, read by the type parser. -/
theorem pType_spells {ts : List Tok} {t : Ty} (h : Spells ts t) : ∃ c, pType ts = some (c, []) ∧ c.conv = .ok t := by
  obtain ⟨c, hc, hr⟩ := (readAs_of h).read
  have h1 := hr [] rfl (3 * ts.length + 3) (by omega)
  rw [List.append_nil] at h1
  exact ⟨c, h1, hc⟩

end Treeno
