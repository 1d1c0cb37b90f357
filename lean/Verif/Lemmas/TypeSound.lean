import Verif.Spec.TypeGrammar
/-!
# The type parser returns derivations of the grammar
-/
namespace Treeno
open Spec

theorem isKw_K {k : Str} {t : Tok} (h : t.isKw k = true) : K k t := by
  simpa [Tok.isKw, K] using h

theorem isSym_S {k : Str} {t : Tok} (h : t.isSym k = true) : S k t := by
  obtain ⟨a, b⟩ := t
  simpa [Tok.isSym, S] using h

theorem sym_some {s : Str} {ts r : List Tok} (h : sym s ts = some r) : ∃ t, S s t ∧ ts = t :: r := by
  cases ts with
  | nil => simp [sym] at h
  | cons t ts =>
    simp only [sym] at h
    split at h
    · next hc => cases h; exact ⟨_, isSym_S hc, rfl⟩
    · simp at h

theorem kw_some {k : Str} {ts r : List Tok} (h : kw k ts = some r) : ∃ t, K k t ∧ ts = t :: r := by
  cases ts with
  | nil => simp [kw] at h
  | cons t ts =>
    simp only [kw] at h
    split at h
    · next hc => cases h; exact ⟨_, isKw_K hc, rfl⟩
    · simp at h

theorem nextSym_true {s : Str} {ts : List Tok} (h : nextSym s ts = true) : ∃ t, S s t ∧ ts = t :: ts.drop 1 := by
  cases ts with
  | nil => simp [nextSym] at h
  | cons t ts => exact ⟨t, isSym_S h, rfl⟩

theorem nextKw_true {s : Str} {ts : List Tok} (h : nextKw s ts = true) : ∃ t, K s t ∧ ts = t :: ts.drop 1 := by
  cases ts with
  | nil => simp [nextKw] at h
  | cons t ts => exact ⟨t, isKw_K h, rfl⟩

theorem isIdent_Ident {t : Tok} (h : t.isIdent = true) : Ident t := by
  unfold Tok.isIdent at h
  unfold Ident
  split at h <;> simp_all

theorem pIdent_some {ts : List Tok} {x} (h : pIdent ts = some x) : Ident x.1 ∧ ts = x.1 :: x.2 := by
  cases ts with
  | nil => simp [pIdent] at h
  | cons t ts =>
    simp only [pIdent] at h
    split at h
    · next hc => cases h; exact ⟨isIdent_Ident hc, rfl⟩
    · simp at h

theorem pKind_some {k : Kind} {ts : List Tok} {x} (h : pKind k ts = some x) : x.1.kind = k ∧ ts = x.1 :: x.2 := by
  cases ts with
  | nil => simp [pKind] at h
  | cons t ts =>
    simp only [pKind] at h
    split at h
    · next hc => cases h; exact ⟨by simpa using hc, rfl⟩
    · simp at h

theorem isIvField_IvField {t : Tok} (h : t.isIvField = true) : IvField t := by
  simp only [Tok.isIvField, intervalFields, Bool.and_eq_true, beq_iff_eq, List.contains_eq_mem, decide_eq_true_eq,
    List.mem_cons, List.not_mem_nil, or_false] at h
  obtain ⟨h1, h2⟩ := h
  rcases h2 with h2 | h2 | h2 | h2 | h2 | h2 <;> simp [IvField, K, h1, h2]

theorem pIvField_some {ts : List Tok} {x} (h : pIvField ts = some x) : IvField x.1 ∧ ts = x.1 :: x.2 := by
  cases ts with
  | nil => simp [pIvField] at h
  | cons t ts =>
    simp only [pIvField] at h
    split at h
    · next hc => cases h; exact ⟨isIvField_IvField hc, rfl⟩
    · simp at h

theorem pZone_some {ts : List Tok} {x} (h : pZone ts = some x) : ∃ zs, GZone x.1 zs ∧ ts = zs ++ x.2 := by
  unfold pZone at h
  split at h
  · next hk =>
    obtain ⟨a, ha, rfl⟩ := kw_some hk
    simp only [Option.bind_eq_bind, Option.bind_eq_some_iff] at h
    obtain ⟨_, h1, _, h2, h3⟩ := h
    obtain ⟨b, hb, rfl⟩ := kw_some h1
    obtain ⟨c, hc, rfl⟩ := kw_some h2
    cases h3
    exact ⟨_, .with_ ha hb hc, rfl⟩
  · split at h
    · next hk =>
      obtain ⟨a, ha, rfl⟩ := kw_some hk
      simp only [Option.bind_eq_bind, Option.bind_eq_some_iff] at h
      obtain ⟨_, h1, _, h2, h3⟩ := h
      obtain ⟨b, hb, rfl⟩ := kw_some h1
      obtain ⟨c, hc, rfl⟩ := kw_some h2
      cases h3
      exact ⟨_, .without ha hb hc, rfl⟩
    · cases h
      exact ⟨[], .none, rfl⟩

/-- What each part of the parser promises on success. -/
def TPost (nt : TNT) (ts : List Tok) (out : nt.Out) (rest : List Tok) : Prop := match nt with
  | .ty => ∃ pre, GTy out pre ∧ ts = pre ++ rest
  | .arrays acc => ∀ as, GTy acc as → ∃ pre, GTy out (as ++ pre) ∧ ts = pre ++ rest
  | .fields => ∃ pre r, GFields out pre ∧ S (c% ")") r ∧ ts = pre ++ r :: rest
  | .params => ∃ pre r, GParams out pre ∧ S (c% ")") r ∧ ts = pre ++ r :: rest

/-- A family of parsers that only returns derivations. -/
def TSound (r : TRec) : Prop := ∀ nt ts out rest, r nt ts = some (out, rest) → TPost nt ts out rest

theorem pTypeParam_sound {r : TRec} (hr : TSound r) {ts : List Tok} {x} (h : pTypeParam r ts = some x) :
    ∃ pre, GParam x.1 pre ∧ ts = pre ++ x.2 := by
  unfold pTypeParam at h
  split at h
  · next hk =>
    obtain ⟨h1, rfl⟩ := pKind_some hk
    cases h
    exact ⟨_, .int h1, rfl⟩
  · simp only [Option.bind_eq_bind, Option.bind_eq_some_iff] at h
    obtain ⟨⟨c, u⟩, h1, h2⟩ := h
    cases h2
    obtain ⟨pre, hp, rfl⟩ := hr _ _ _ _ h1
    exact ⟨pre, .ty hp, rfl⟩

theorem pPrecision_sound {r : TRec} (hr : TSound r) {ts : List Tok} {x} (h : pPrecision r ts = some x) :
    ∃ pre, GPrec x.1 pre ∧ ts = pre ++ x.2 := by
  unfold pPrecision at h
  split at h
  · cases h; exact ⟨[], .none, rfl⟩
  · next hk =>
    obtain ⟨a, ha, rfl⟩ := sym_some hk
    simp only [Option.bind_eq_bind, Option.bind_eq_some_iff] at h
    obtain ⟨⟨c, u⟩, h1, _, h2, h3⟩ := h
    obtain ⟨b, hb, rfl⟩ := sym_some h2
    cases h3
    obtain ⟨pre, hp, rfl⟩ := pTypeParam_sound hr h1
    exact ⟨a :: (pre ++ [b]), .some ha hp hb, by simp⟩

theorem pTypeBase_sound {r : TRec} (hr : TSound r) {ts : List Tok} {x} (h : pTypeBase r ts = some x) :
    ∃ pre, GTy x.1 pre ∧ ts = pre ++ x.2 := by
  unfold pTypeBase at h
  split at h
  · simp at h
  · next t ts' =>
    split at h
    · next hc =>
      simp only [Bool.and_eq_true] at hc
      obtain ⟨l, hl, e⟩ := nextSym_true hc.1.2
      simp only [Option.bind_eq_bind, Option.bind_eq_some_iff] at h
      obtain ⟨⟨c, u⟩, h1, h2⟩ := h
      cases h2
      obtain ⟨pre, r, hp, hr, e'⟩ := hr _ _ _ _ h1
      exact ⟨t :: l :: (pre ++ [r]), .row (isKw_K hc.1.1) hl hp hr, by rw [e, e']; simp⟩
    split at h
    · next hc =>
      simp only [Bool.and_eq_true] at hc
      simp only [Option.bind_eq_bind, Option.bind_eq_some_iff] at h
      obtain ⟨⟨f, u⟩, h1, ⟨to, v⟩, h2, h3⟩ := h
      cases h3
      obtain ⟨h7, rfl⟩ := pIvField_some h1
      unfold pIvTo at h2
      split at h2
      · cases h2
        exact ⟨[t, f], .interval (isKw_K hc.1) h7, rfl⟩
      · next hk =>
        obtain ⟨a, ha, rfl⟩ := kw_some hk
        simp only [Option.bind_eq_bind, Option.bind_eq_some_iff] at h2
        obtain ⟨⟨g, w⟩, h4, h5⟩ := h2
        cases h5
        obtain ⟨h6, rfl⟩ := pIvField_some h4
        exact ⟨[t, f, a, g], .intervalTo (isKw_K hc.1) h7 ha h6, rfl⟩
    split at h
    · next hc =>
      simp only [Option.bind_eq_bind, Option.bind_eq_some_iff] at h
      obtain ⟨⟨p, u⟩, h1, ⟨z, v⟩, h2, h3⟩ := h
      cases h3
      obtain ⟨ps, hp, rfl⟩ := pPrecision_sound hr h1
      obtain ⟨zs, hz, rfl⟩ := pZone_some h2
      cases hb : t.isKw (c% "TIMESTAMP") with
      | true => exact ⟨t :: (ps ++ zs), .timestamp (isKw_K hb) hp hz, by simp⟩
      | false =>
        rw [hb] at hc
        exact ⟨t :: (ps ++ zs), .time (isKw_K hc) hp hz, by simp⟩
    split at h
    · next hc =>
      simp only [Bool.and_eq_true] at hc
      obtain ⟨l, hl, e⟩ := nextKw_true hc.2
      cases h
      exact ⟨[t, l], .double (isKw_K hc.1) hl, by rw [e]; rfl⟩
    split at h
    · next hc =>
      simp only [Bool.and_eq_true] at hc
      obtain ⟨l, hl, e⟩ := nextSym_true hc.2
      simp only [Option.bind_eq_bind, Option.bind_eq_some_iff] at h
      obtain ⟨⟨c, u⟩, h1, _, h2, h3⟩ := h
      obtain ⟨b, hb, rfl⟩ := sym_some h2
      cases h3
      obtain ⟨pre, hp, e'⟩ := hr _ _ _ _ h1
      exact ⟨t :: l :: (pre ++ [b]), .legacyArray (isKw_K hc.1) hl hp hb, by rw [e, e']; simp⟩
    split at h
    · next hc =>
      simp only [Bool.and_eq_true] at hc
      obtain ⟨l, hl, e⟩ := nextSym_true hc.2
      simp only [Option.bind_eq_bind, Option.bind_eq_some_iff] at h
      obtain ⟨⟨c, u⟩, h1, _, h2, ⟨d, w⟩, h3, _, h4, h5⟩ := h
      obtain ⟨b, hb, rfl⟩ := sym_some h2
      obtain ⟨b', hb', rfl⟩ := sym_some h4
      cases h5
      obtain ⟨pre, hp, e'⟩ := hr _ _ _ _ h1
      obtain ⟨pre', hp', rfl⟩ := hr _ _ _ _ h3
      exact ⟨t :: l :: (pre ++ b :: (pre' ++ [b'])), .legacyMap (isKw_K hc.1) hl hp hb hp' hb', by rw [e, e']; simp⟩
    split at h
    · next hc =>
      split at h
      · cases h
        exact ⟨[t], .name (isIdent_Ident hc), rfl⟩
      · next hk =>
        obtain ⟨a, ha, rfl⟩ := sym_some hk
        simp only [Option.bind_eq_bind, Option.bind_eq_some_iff] at h
        obtain ⟨⟨c, u⟩, h1, h2⟩ := h
        cases h2
        obtain ⟨pre, r, hp, hr, rfl⟩ := hr _ _ _ _ h1
        exact ⟨t :: a :: (pre ++ [r]), .generic (isIdent_Ident hc) ha hp hr, by simp⟩
    · simp at h

theorem pArrays_sound {r : TRec} (hr : TSound r) {acc : CTy} {ts : List Tok} {x} (h : pArrays r acc ts = some x) :
    ∀ as, GTy acc as → ∃ pre, GTy x.1 (as ++ pre) ∧ ts = pre ++ x.2 := by
  intro as has
  unfold pArrays at h
  split at h
  · cases h; exact ⟨[], by simpa using has, rfl⟩
  · next hk =>
    obtain ⟨a, ha, rfl⟩ := kw_some hk
    split at h
    · obtain ⟨pre, hp, rfl⟩ := hr _ _ _ _ h _ (.arrayOf has ha)
      exact ⟨a :: pre, by simpa using hp, rfl⟩
    · next hk =>
      obtain ⟨l, hl, rfl⟩ := sym_some hk
      simp only [Option.bind_eq_bind, Option.bind_eq_some_iff] at h
      obtain ⟨⟨n, u⟩, h1, _, h2, h3⟩ := h
      obtain ⟨b, hb, rfl⟩ := sym_some h2
      obtain ⟨hn, rfl⟩ := pKind_some h1
      obtain ⟨pre, hp, e⟩ := hr _ _ _ _ h3 _ (.arrayOfSize has ha hl hn hb)
      exact ⟨a :: l :: n :: b :: pre, by simpa using hp, by simp [e]⟩

theorem pField_sound {r : TRec} (hr : TSound r) {ts : List Tok} {x} (h : pField r ts = some x) :
    ∃ pre, GField x.1 pre ∧ ts = pre ++ x.2 := by
  unfold pField at h
  split at h
  · simp only [Option.bind_eq_bind, Option.bind_eq_some_iff] at h
    obtain ⟨⟨n, u⟩, h1, ⟨c, v⟩, h2, h3⟩ := h
    cases h3
    obtain ⟨hn, rfl⟩ := pIdent_some h1
    obtain ⟨pre, hp, e⟩ := hr _ _ _ _ h2
    exact ⟨n :: pre, .named hn hp, by simp at e; simp [e]⟩
  · simp only [Option.bind_eq_bind, Option.bind_eq_some_iff] at h
    obtain ⟨⟨c, v⟩, h2, h3⟩ := h
    cases h3
    obtain ⟨pre, hp, rfl⟩ := hr _ _ _ _ h2
    exact ⟨pre, .unnamed hp, rfl⟩

theorem tStep_sound {r : TRec} (hr : TSound r) : TSound (tStep r) := by
  intro nt ts out rest h
  cases nt with
  | ty =>
    simp only [tStep, Option.bind_eq_bind, Option.bind_eq_some_iff] at h
    obtain ⟨⟨c, v⟩, h1, h2⟩ := h
    obtain ⟨as, has, rfl⟩ := pTypeBase_sound hr h1
    obtain ⟨pre, hp, e⟩ := hr _ _ _ _ h2 _ has
    exact ⟨as ++ pre, hp, by simp at e; simp [e]⟩
  | arrays acc => exact pArrays_sound hr h
  | fields =>
    simp only [tStep, Option.bind_eq_bind, Option.bind_eq_some_iff] at h
    obtain ⟨⟨c, v⟩, h1, h2⟩ := h
    obtain ⟨as, has, rfl⟩ := pField_sound hr h1
    dsimp only at h2 has
    split at h2
    · next hk =>
      obtain ⟨m, hm, e⟩ := sym_some hk
      simp only [Option.bind_eq_some_iff] at h2
      obtain ⟨⟨d, w⟩, h3, h4⟩ := h2
      cases h4
      obtain ⟨pre, r, hp, hr, rfl⟩ := hr _ _ _ _ h3
      exact ⟨as ++ m :: pre, r, .more has hm hp, hr, by simp [e]⟩
    · simp only [Option.bind_eq_some_iff] at h2
      obtain ⟨_, h3, h4⟩ := h2
      obtain ⟨m, hm, e⟩ := sym_some h3
      cases h4
      exact ⟨as, m, .one has, hm, by simp [e]⟩
  | params =>
    simp only [tStep, Option.bind_eq_bind, Option.bind_eq_some_iff] at h
    obtain ⟨⟨c, v⟩, h1, h2⟩ := h
    obtain ⟨as, has, rfl⟩ := pTypeParam_sound hr h1
    dsimp only at h2 has
    split at h2
    · next hk =>
      obtain ⟨m, hm, e⟩ := sym_some hk
      simp only [Option.bind_eq_some_iff] at h2
      obtain ⟨⟨d, w⟩, h3, h4⟩ := h2
      cases h4
      obtain ⟨pre, r, hp, hr, rfl⟩ := hr _ _ _ _ h3
      exact ⟨as ++ m :: pre, r, .more has hm hp, hr, by simp [e]⟩
    · simp only [Option.bind_eq_some_iff] at h2
      obtain ⟨_, h3, h4⟩ := h2
      obtain ⟨m, hm, e⟩ := sym_some h3
      cases h4
      exact ⟨as, m, .one has, hm, by simp [e]⟩

theorem tParser_sound : ∀ n, TSound (tParser n)
  | 0 => by intro nt ts out rest h; simp [tParser] at h
  | n + 1 => tStep_sound (tParser_sound n)

/-- A type read by the parser is derived by the grammar from the tokens consumed. -/
theorem pType_sound {ts rest : List Tok} {c : CTy} (h : pType ts = some (c, rest)) :
    ∃ pre, GTy c pre ∧ ts = pre ++ rest := tParser_sound _ _ _ _ _ h

end Treeno
