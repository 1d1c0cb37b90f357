import Verif.Conversions
/-!
# Facts about the conversion functions
-/
namespace Treeno

/-- Two computations succeed with the same results. -/
def SameOk {α} (x y : Except Err α) : Prop := ∀ c, x = .ok c ↔ y = .ok c

theorem SameOk.refl {α} (x : Except Err α) : SameOk x x := fun _ => Iff.rfl
theorem SameOk.errors {α} (e f : Err) : SameOk (.error e : Except Err α) (.error f) := by
  intro c; simp

/-- A computation whose result is thrown away. -/
theorem SameOk.discard {α β} {x y : Except Err α} (h : SameOk x y) (b : β) :
    SameOk (x >>= fun _ => .ok b) (y >>= fun _ => .ok b) := by
  cases hx : x with
  | ok a =>
    have := (h a).1 hx
    rw [this]; exact .refl _
  | error e =>
    cases hy : y with
    | ok a => have := (h a).2 hy; rw [hx] at this; simp at this
    | error f => exact SameOk.errors e f

theorem SameOk.bind {α β} {x y : Except Err α} (h : SameOk x y) {f g : α → Except Err β}
    (hfg : ∀ a, SameOk (f a) (g a)) : SameOk (x >>= f) (y >>= g) := by
  cases hx : x with
  | ok a =>
    have := (h a).1 hx
    rw [this]; exact hfg a
  | error e =>
    cases hy : y with
    | ok a => have := (h a).2 hy; rw [hx] at this; simp at this
    | error f => exact SameOk.errors e f

theorem mkChar_eq (n : Int) : mkType (c% "CHAR") [(c% "max_chars", .int n)] = .ok (.char n) := rfl
theorem mkChar_nil : mkType (c% "CHAR") [] = .ok (.char 1) := rfl
theorem mkVarchar_eq (n : Int) :
    mkType (c% "VARCHAR") [(c% "max_chars", .int n)] = .ok (.varchar (some n)) := rfl
theorem mkVarchar_nil : mkType (c% "VARCHAR") [] = .ok (.varchar none) := rfl
theorem mkDecimal_eq (p s : Int) :
    mkDecimal p s = if 0 ≤ p ∧ p ≤ 38 then .ok (.decimal p s) else .error .assertion := rfl

theorem commonTime_error (p1 z1 p2 z2) (t : Ty) : commonTimelike (c% "TIME") p1 z1 p2 z2 ≠ .ok t := by
  cases p1 <;> cases p2 <;> intro h <;> cases h

theorem commonTimestamp_error (p1 z1 p2 z2) (t : Ty) :
    commonTimelike (c% "TIMESTAMP") p1 z1 p2 z2 ≠ .ok t := by
  cases p1 <;> cases p2 <;> intro h <;> cases h

theorem commonDecimal_comm (p1 s1 p2 s2 : Int) :
    commonDecimal (.decimal p1 s1) (.decimal p2 s2) = commonDecimal (.decimal p2 s2) (.decimal p1 s1) := by
  simp only [commonDecimal]
  rw [show max s1 s2 = max s2 s1 by omega, show max (p1 - s1) (p2 - s2) = max (p2 - s2) (p1 - s1) by omega]

theorem commonVarchar_comm (a b : Option Int) :
    commonVarchar (.varchar a) (.varchar b) = commonVarchar (.varchar b) (.varchar a) := by
  cases a <;> cases b <;> simp only [commonVarchar]
  rename_i a b
  rw [show max a b = max b a by omega]

theorem commonChar_comm (a b : Int) : commonChar (.char a) (.char b) = commonChar (.char b) (.char a) := by
  simp only [commonChar]
  rw [show max a b = max b a by omega]

/-- The outcome of `common_supertype` on two different types with one name. -/
theorem supertype_same {a b : Ty} (h : a.typeName = b.typeName) (hne : a ≠ b) (c : Ty)
    (hc : commonSupertype a b = .ok c) : c = .unknown := by
  have fin : ∀ {α} (x : Except Err α), (x >>= fun _ => (.ok .unknown : Except Err Ty)) = .ok c → c = .unknown := by
    intro α x hx
    cases x with
    | error e => cases hx
    | ok y => cases hx; rfl
  rw [commonSupertype.eq_def, if_pos h, if_neg hne] at hc
  split at hc
  case h_3 a b c d =>
    cases hx : commonSupertype a c with
    | error e => rw [hx] at hc; cases hc
    | ok y =>
      rw [hx] at hc
      exact fin _ hc
  case h_10 => cases hc; rfl
  all_goals exact fin _ hc

/-- `common_supertype` on types with different names. -/
def crossFamily (t1 t2 : Ty) : Except Err Ty :=
  if t1.isNumeric then commonNumeric t1 t2
  else if t1.isString then commonString t1 t2
  else if t1.isHll then commonHll t1 t2
  else if t1.isDatetime then commonDatetime t1 t2
  else .error .typeError

theorem supertype_diff {a b : Ty} (h : a.typeName ≠ b.typeName) :
    commonSupertype a b = crossFamily a b := by
  rw [commonSupertype.eq_def, if_neg h]; rfl

theorem supertype_self (a : Ty) : commonSupertype a a = .ok a := by
  rw [commonSupertype.eq_def, if_pos rfl, if_pos rfl]

theorem numeric_cases {a : Ty} (h : a.isNumeric = true) :
    a = .simple .tinyint ∨ a = .simple .smallint ∨ a = .simple .integer ∨ a = .simple .bigint ∨
    a = .simple .real ∨ a = .simple .double ∨ ∃ p s, a = .decimal p s := by
  cases a with
  | simple s => cases s <;> first | exact absurd h (by decide) | simp
  | decimal p s => simp
  | _ => simp [Ty.isNumeric, Ty.isIntegral, Ty.isFloat, Ty.isDecimal] at h

theorem string_cases {a : Ty} (h : a.isString = true) : (∃ n, a = .char n) ∨ ∃ n, a = .varchar n := by
  cases a <;> simp [Ty.isString] at h <;> simp

theorem hll_cases {a : Ty} (h : a.isHll = true) :
    a = .simple .hyperloglog ∨ a = .simple .p4hyperloglog := by
  cases a with
  | simple s => cases s <;> first | exact absurd h (by decide) | simp
  | _ => simp [Ty.isHll] at h

theorem datetime_cases {a : Ty} (h : a.isDatetime = true) :
    a = .simple .date ∨ (∃ p z, a = .time p z) ∨ ∃ p z, a = .timestamp p z := by
  cases a with
  | simple s => cases s <;> first | exact absurd h (by decide) | simp
  | time p z => simp
  | timestamp p z => simp
  | _ => simp [Ty.isDatetime] at h

/-- The families are disjoint. -/
theorem family_disjoint (a : Ty) :
    (a.isNumeric = true → a.isString = false ∧ a.isHll = false ∧ a.isDatetime = false) ∧
    (a.isString = true → a.isHll = false ∧ a.isDatetime = false) ∧
    (a.isHll = true → a.isDatetime = false) := by
  refine ⟨fun h => ?_, fun h => ?_, fun h => ?_⟩
  · rcases numeric_cases h with rfl | rfl | rfl | rfl | rfl | rfl | ⟨p, s, rfl⟩ <;> exact ⟨rfl, rfl, rfl⟩
  · rcases string_cases h with ⟨n, rfl⟩ | ⟨n, rfl⟩ <;> exact ⟨rfl, rfl⟩
  · rcases hll_cases h with rfl | rfl <;> rfl

/-- Success needs both types in one family, and then the family's function is used. -/
theorem crossFamily_ok (a b c : Ty) : crossFamily a b = .ok c ↔
    (a.isNumeric = true ∧ b.isNumeric = true ∧ commonNumeric a b = .ok c) ∨
    (a.isString = true ∧ b.isString = true ∧ commonString a b = .ok c) ∨
    (a.isHll = true ∧ b.isHll = true ∧ commonHll a b = .ok c) ∨
    (a.isDatetime = true ∧ b.isDatetime = true ∧ commonDatetime a b = .ok c) := by
  obtain ⟨d1, d2, d3⟩ := family_disjoint a
  have n1 : commonNumeric a b = .ok c → b.isNumeric = true := by
    intro h; unfold commonNumeric at h
    by_cases hb : b.isNumeric = true
    · exact hb
    · simp [hb] at h
  have n2 : commonString a b = .ok c → b.isString = true := by
    intro h; unfold commonString at h
    by_cases hb : b.isString = true
    · exact hb
    · simp [hb] at h
  have n3 : commonHll a b = .ok c → b.isHll = true := by
    intro h; unfold commonHll at h
    by_cases hb : b.isHll = true
    · exact hb
    · simp [hb] at h
  have n4 : commonDatetime a b = .ok c → b.isDatetime = true := by
    intro h; unfold commonDatetime at h
    by_cases hb : b.isDatetime = true
    · exact hb
    · simp [hb] at h
  unfold crossFamily
  by_cases h1 : a.isNumeric = true
  · rw [if_pos h1]
    obtain ⟨e1, e2, e3⟩ := d1 h1
    simp only [h1, e1, e2, e3, true_and, false_and, or_false, Bool.false_eq_true]
    exact ⟨fun h => ⟨n1 h, h⟩, fun h => h.2⟩
  rw [if_neg h1]
  by_cases h2 : a.isString = true
  · rw [if_pos h2]
    obtain ⟨e1, e2⟩ := d2 h2
    simp only [h1, h2, e1, e2, true_and, false_and, or_false, false_or, Bool.false_eq_true]
    exact ⟨fun h => ⟨n2 h, h⟩, fun h => h.2⟩
  rw [if_neg h2]
  by_cases h3 : a.isHll = true
  · rw [if_pos h3]
    have e1 := d3 h3
    simp only [h1, h2, h3, e1, true_and, false_and, or_false, false_or, Bool.false_eq_true]
    exact ⟨fun h => ⟨n3 h, h⟩, fun h => h.2⟩
  rw [if_neg h3]
  by_cases h4 : a.isDatetime = true
  · rw [if_pos h4]
    simp only [h1, h2, h3, h4, true_and, false_and, false_or, Bool.false_eq_true]
    exact ⟨fun h => ⟨n4 h, h⟩, fun h => h.2⟩
  · rw [if_neg h4]
    simp [h1, h2, h3, h4]

theorem commonNumeric_comm {a b : Ty} (ha : a.isNumeric = true) (hb : b.isNumeric = true)
    (hne : a.typeName ≠ b.typeName) : commonNumeric a b = commonNumeric b a := by
  rcases numeric_cases ha with rfl | rfl | rfl | rfl | rfl | rfl | ⟨p, s, rfl⟩ <;>
  rcases numeric_cases hb with rfl | rfl | rfl | rfl | rfl | rfl | ⟨p', s', rfl⟩ <;>
  first
  | rfl
  | exact commonDecimal_comm _ _ _ _
  | exact absurd rfl hne

theorem commonString_comm {a b : Ty} (ha : a.isString = true) (hb : b.isString = true)
    (hne : a.typeName ≠ b.typeName) : commonString a b = commonString b a := by
  rcases string_cases ha with ⟨n, rfl⟩ | ⟨n, rfl⟩ <;> rcases string_cases hb with ⟨m, rfl⟩ | ⟨m, rfl⟩
  · exact absurd rfl hne
  · cases m with
    | none => exact commonChar_comm _ _
    | some m => exact commonChar_comm _ _
  · cases n with
    | none => exact commonChar_comm _ _
    | some m => exact commonChar_comm _ _
  · exact absurd rfl hne

theorem commonDatetime_comm {a b : Ty} (ha : a.isDatetime = true) (hb : b.isDatetime = true)
    (hne : a.typeName ≠ b.typeName) : commonDatetime a b = commonDatetime b a := by
  rcases datetime_cases ha with rfl | ⟨p, z, rfl⟩ | ⟨p, z, rfl⟩ <;>
  rcases datetime_cases hb with rfl | ⟨p', z', rfl⟩ | ⟨p', z', rfl⟩ <;>
  first | rfl | exact absurd rfl hne

theorem commonHll_comm {a b : Ty} (ha : a.isHll = true) (hb : b.isHll = true) :
    commonHll a b = commonHll b a := by
  unfold commonHll; simp [ha, hb]

theorem crossFamily_comm {a b : Ty} (hne : a.typeName ≠ b.typeName) :
    SameOk (crossFamily a b) (crossFamily b a) := by
  intro c
  rw [crossFamily_ok, crossFamily_ok]
  constructor
  · rintro (⟨h1, h2, h⟩ | ⟨h1, h2, h⟩ | ⟨h1, h2, h⟩ | ⟨h1, h2, h⟩)
    · exact .inl ⟨h2, h1, commonNumeric_comm h1 h2 hne ▸ h⟩
    · exact .inr (.inl ⟨h2, h1, commonString_comm h1 h2 hne ▸ h⟩)
    · exact .inr (.inr (.inl ⟨h2, h1, commonHll_comm h1 h2 ▸ h⟩))
    · exact .inr (.inr (.inr ⟨h2, h1, commonDatetime_comm h1 h2 hne ▸ h⟩))
  · rintro (⟨h1, h2, h⟩ | ⟨h1, h2, h⟩ | ⟨h1, h2, h⟩ | ⟨h1, h2, h⟩)
    · exact .inl ⟨h2, h1, commonNumeric_comm h1 h2 (Ne.symm hne) ▸ h⟩
    · exact .inr (.inl ⟨h2, h1, commonString_comm h1 h2 (Ne.symm hne) ▸ h⟩)
    · exact .inr (.inr (.inl ⟨h2, h1, commonHll_comm h1 h2 ▸ h⟩))
    · exact .inr (.inr (.inr ⟨h2, h1, commonDatetime_comm h1 h2 (Ne.symm hne) ▸ h⟩))

theorem commonInterval_comm (k l : IvKind) (h : k ≠ l) : commonInterval k l = commonInterval l k := by
  cases k <;> cases l <;> first | rfl | exact absurd rfl h

mutual
/-- `common_supertype` is symmetric. -/
theorem supertype_comm : ∀ a b : Ty, SameOk (commonSupertype a b) (commonSupertype b a)
  | a, b => by
    by_cases hn : a.typeName = b.typeName
    · by_cases he : a = b
      · subst he; exact .refl _
      · rw [commonSupertype.eq_def, commonSupertype.eq_def b a, if_pos hn, if_neg he, if_pos hn.symm,
          if_neg (Ne.symm he)]
        match a, b, hn, he with
        | .row l, .row m, _, _ => exact (row_comm l m).discard _
        | .array a, .array b, _, _ => exact (supertype_comm a b).discard _
        | .map a b, .map c d, _, _ =>
          exact (supertype_comm a c).bind fun _ => (supertype_comm b d).discard _
        | .decimal p s, .decimal q r, _, _ =>
          dsimp only; rw [commonDecimal_comm]; exact .refl _
        | .varchar n, .varchar m, _, _ => dsimp only; rw [commonVarchar_comm]; exact .refl _
        | .char n, .char m, _, _ => dsimp only; rw [commonChar_comm]; exact .refl _
        | .time p z, .time p' z', _, _ =>
          intro c
          dsimp only
          cases h1 : commonTimelike (c% "TIME") p z p' z' with
          | ok t => exact absurd h1 (commonTime_error _ _ _ _ _)
          | error e =>
            cases h2 : commonTimelike (c% "TIME") p' z' p z with
            | ok t => exact absurd h2 (commonTime_error _ _ _ _ _)
            | error e' => exact SameOk.errors e e' c
        | .timestamp p z, .timestamp p' z', _, _ =>
          intro c
          dsimp only
          cases h1 : commonTimelike (c% "TIMESTAMP") p z p' z' with
          | ok t => exact absurd h1 (commonTimestamp_error _ _ _ _ _)
          | error e =>
            cases h2 : commonTimelike (c% "TIMESTAMP") p' z' p z with
            | ok t => exact absurd h2 (commonTimestamp_error _ _ _ _ _)
            | error e' => exact SameOk.errors e e' c
        | .interval k, .interval l, _, he =>
          dsimp only
          rw [commonInterval_comm k l (fun e => he (by rw [e]))]
          exact .refl _
        | .simple s, .simple t, hn, he =>
          cases s <;> cases t <;> exact .refl _
        | .qdigest s, .qdigest t, hn, he => exact .refl _
        | .simple s, .decimal _ _, hn, _ | .simple s, .varchar _, hn, _ | .simple s, .char _, hn, _
        | .simple s, .time _ _, hn, _ | .simple s, .timestamp _ _, hn, _ | .simple s, .interval _, hn, _
        | .simple s, .array _, hn, _ | .simple s, .map _ _, hn, _ | .simple s, .row _, hn, _
        | .simple s, .qdigest _, hn, _ => cases s <;> exact .refl _
        | .decimal _ _, .simple s, hn, _ | .varchar _, .simple s, hn, _ | .char _, .simple s, hn, _
        | .time _ _, .simple s, hn, _ | .timestamp _ _, .simple s, hn, _ | .interval _, .simple s, hn, _
        | .array _, .simple s, hn, _ | .map _ _, .simple s, hn, _ | .row _, .simple s, hn, _
        | .qdigest _, .simple s, hn, _ => cases s <;> exact .refl _
    · rw [supertype_diff hn, supertype_diff (Ne.symm hn)]
      exact crossFamily_comm hn
/-- `common_row` is symmetric. -/
theorem row_comm : ∀ l m : List Ty, SameOk (commonRow l m) (commonRow m l)
  | [], [] => .refl _
  | [], _ :: _ => by simp only [commonRow]; exact .refl _
  | _ :: _, [] => by simp only [commonRow]; exact .refl _
  | a :: l, b :: m => by
    rw [commonRow.eq_def, commonRow.eq_def (b :: m)]
    exact (supertype_comm a b).bind fun _ => (row_comm l m).bind fun _ => .refl _
end

end Treeno
