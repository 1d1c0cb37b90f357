import Verif.Lemmas.Conversions
import Verif.Lemmas.Types
import Verif.Spec.Numeric
import Verif.Spec.Widening
import Mathlib.Tactic.Linarith
import Mathlib.Tactic.NormNum
/-!
# Type arithmetic: properties C04 - C09
-/
set_option autoImplicit false
namespace Treeno.Props
open Treeno Spec

/-! ## C08 and C04: symmetry -/

/-- **C08.** `common_supertype` is symmetric: one order succeeds with `c` exactly when the other
does (so it also fails in both orders or in neither). -/
theorem C08_supertype_symmetric (a b c : Ty) :
    commonSupertype a b = .ok c ↔ commonSupertype b a = .ok c := supertype_comm a b c

/-- **C08.** `common_supertype` of a type with itself is that type. -/
theorem C08_supertype_idempotent (a : Ty) : commonSupertype a a = .ok a := supertype_self a

theorem sameType_comm (a b : Ty) (hn : a.typeName = b.typeName) (he : a ≠ b) :
    SameOk (commonSameType a b) (commonSameType b a) := by
  match a, b, hn, he with
  | .row l, .row m, _, _ => exact (row_comm l m).bind fun _ => .refl _
  | .array a, .array b, _, _ => exact (supertype_comm a b).bind fun _ => .refl _
  | .map a b, .map c d, _, _ =>
    exact (supertype_comm a c).bind fun _ => (supertype_comm b d).bind fun _ => .refl _
  | .decimal p s, .decimal q r, _, _ =>
    simp only [commonSameType]; rw [commonDecimal_comm]; exact .refl _
  | .varchar n, .varchar m, _, _ =>
    simp only [commonSameType]; rw [commonVarchar_comm]; exact .refl _
  | .char n, .char m, _, _ => simp only [commonSameType]; rw [commonChar_comm]; exact .refl _
  | .time p z, .time p' z', _, _ =>
    intro c
    simp only [commonSameType]
    exact ⟨fun h => absurd h (commonTime_error _ _ _ _ _), fun h => absurd h (commonTime_error _ _ _ _ _)⟩
  | .timestamp p z, .timestamp p' z', _, _ =>
    intro c
    simp only [commonSameType]
    exact ⟨fun h => absurd h (commonTimestamp_error _ _ _ _ _), fun h => absurd h (commonTimestamp_error _ _ _ _ _)⟩
  | .interval k, .interval l, _, he =>
    simp only [commonSameType]
    rw [commonInterval_comm k l (fun e => he (by rw [e]))]
    exact .refl _
  | .simple s, .simple t, hn, he => exact .refl _
  | .qdigest s, .qdigest t, hn, he => exact .refl _
  | .simple s, .decimal _ _, hn, _ | .simple s, .varchar _, hn, _ | .simple s, .char _, hn, _
  | .simple s, .time _ _, hn, _ | .simple s, .timestamp _ _, hn, _ | .simple s, .interval _, hn, _
  | .simple s, .array _, hn, _ | .simple s, .map _ _, hn, _ | .simple s, .row _, hn, _
  | .simple s, .qdigest _, hn, _ => exact .refl _
  | .decimal _ _, .simple s, hn, _ | .varchar _, .simple s, hn, _ | .char _, .simple s, hn, _
  | .time _ _, .simple s, hn, _ | .timestamp _ _, .simple s, hn, _ | .interval _, .simple s, hn, _
  | .array _, .simple s, hn, _ | .map _ _, .simple s, hn, _ | .row _, .simple s, hn, _
  | .qdigest _, .simple s, hn, _ => exact .refl _

/-- **C04.** The type of an arithmetic operator does not depend on operand order, and neither does
whether typing raises. -/
theorem C04_arithmetic_symmetric (a b c : Ty) :
    arithmeticType a b = .ok c ↔ arithmeticType b a = .ok c := by
  unfold arithmeticType
  by_cases he : a = b
  · subst he; exact Iff.rfl
  rw [if_neg he, if_neg (Ne.symm he)]
  by_cases hn : a.typeName = b.typeName
  · rw [if_pos hn, if_pos hn.symm]
    exact sameType_comm a b hn he c
  rw [if_neg hn, if_neg (Ne.symm hn)]
  cases ha : a.isNumeric <;> cases hb : b.isNumeric <;> simp only [Bool.and_true, Bool.and_false,
    Bool.false_eq_true, if_false, if_true]
  rw [commonNumeric_comm ha hb hn]

example : commonSupertype (.simple .date) (.timestamp (some 3) true) = .ok (.timestamp (some 3) true) ∧
    commonSupertype (.timestamp (some 3) true) (.simple .date) = .ok (.timestamp (some 3) true) := by decide
example : arithmeticType (.simple .bigint) (.decimal 10 5) = .ok (.decimal 24 5) ∧
    arithmeticType (.decimal 10 5) (.simple .bigint) = .ok (.decimal 24 5) := by decide
-- both orders fail, with different exceptions
example : commonSupertype (.simple .integer) (.array (.simple .integer)) = .error .assertion ∧
    commonSupertype (.array (.simple .integer)) (.simple .integer) = .error .typeError := by decide

/-! ## C05: no numeric range is lost -/

theorem holds_dec_mono {p s q r : ℤ} (h1 : s ≤ r) (h2 : p - s ≤ q - r) {x : ℚ}
    (h : Holds (.decimal p s) x) : Holds (.decimal q r) x := by
  obtain ⟨m, rfl, hm⟩ := h
  obtain ⟨k, hk⟩ : ∃ k : ℕ, r = s + k := ⟨(r - s).toNat, by omega⟩
  subst hk
  refine ⟨m * 10 ^ k, ?_, ?_⟩
  · push_cast
    rw [mul_assoc, ← zpow_natCast, ← zpow_add₀ (by norm_num)]
    congr 2
    omega
  · push_cast
    rw [abs_mul, abs_of_pos (show (0:ℚ) < 10 ^ k by positivity)]
    calc |(m : ℚ)| * 10 ^ k < 10 ^ p * 10 ^ k := mul_lt_mul_of_pos_right hm (by positivity)
      _ = 10 ^ (p + k) := by rw [← zpow_natCast, ← zpow_add₀ (by norm_num)]
      _ ≤ 10 ^ q := zpow_le_zpow_right₀ (by norm_num) (by omega)

theorem holds_int_dec {t : Ty} {n : ℕ} {d : ℤ} (hn : intBits t = some n) (hd : intDigits t = some d)
    {x : ℚ} (h : Holds t x) : Holds (.decimal d 0) x := by
  have key : ∀ (n : ℕ) (d : ℤ), (2:ℤ) ^ (n - 1) < 10 ^ d.toNat → 0 ≤ d →
      ∀ i : ℤ, -2 ^ (n - 1) ≤ i → i < 2 ^ (n - 1) → Holds (.decimal d 0) (i : ℚ) := by
    intro n d h0 hd0 i h1 h2
    refine ⟨i, by simp, ?_⟩
    have : |i| < 10 ^ d.toNat := abs_lt.2 ⟨by linarith, by linarith⟩
    have h3 : (10:ℚ) ^ d = ((10 ^ d.toNat : ℤ) : ℚ) := by
      push_cast
      rw [← zpow_natCast, Int.toNat_of_nonneg hd0]
    rw [h3, ← Int.cast_abs]
    exact_mod_cast this
  cases t with
  | simple s =>
    obtain ⟨k, hk, i, rfl, h1, h2⟩ := h
    cases s <;> simp [intBits, intDigits] at hn hd hk <;> subst hd <;> subst hk <;>
      exact key _ _ (by decide) (by decide) i h1 h2
  | _ => simp [intBits] at hn

theorem covers_refl (a : Ty) : Covers a a := by
  unfold Covers
  cases approxBits a with
  | none => exact fun q h => h
  | some n => exact le_refl n

/-- `common_decimal` covers both of its arguments. -/
theorem commonDecimal_spec {p s q r : ℤ} {c : Ty} (h : commonDecimal (.decimal p s) (.decimal q r) = .ok c) :
    ∃ P S, c = .decimal P S ∧ s ≤ S ∧ r ≤ S ∧ p - s ≤ P - S ∧ q - r ≤ P - S ∧
      (S = s ∨ S = r) ∧ (P - S = p - s ∨ P - S = q - r) := by
  simp only [commonDecimal, mkDecimal_eq] at h
  split at h
  · cases h
    exact ⟨_, _, rfl, by omega, by omega, by omega, by omega, by omega, by omega⟩
  · cases h

theorem covers_of_imp {a c : Ty} (ha : approxBits a = none) (hc : approxBits c = none)
    (h : ∀ q, Holds a q → Holds c q) : Covers c a := by
  unfold Covers; rw [ha, hc]; exact h

theorem int_covers {a b : Ty} {n m : ℕ} (ha : intBits a = some n) (hb : intBits b = some m)
    (h : n ≤ m) : Covers b a := by
  have nodec : ∀ {t : Ty} {k : ℕ}, intBits t = some k → ∃ s, t = .simple s := by
    intro t k ht; cases t <;> simp [intBits] at ht ⊢
  obtain ⟨s, rfl⟩ := nodec ha
  obtain ⟨t, rfl⟩ := nodec hb
  have na : approxBits (.simple s) = none := by cases s <;> simp [intBits] at ha <;> rfl
  have nb : approxBits (.simple t) = none := by cases t <;> simp [intBits] at hb <;> rfl
  refine covers_of_imp na nb ?_
  rintro q ⟨k, hk, i, rfl, h1, h2⟩
  rw [ha] at hk; cases hk
  have : (2:ℤ) ^ (n - 1) ≤ 2 ^ (m - 1) := pow_le_pow_right₀ (by norm_num) (by omega)
  exact ⟨m, hb, i, rfl, by linarith, by linarith⟩

/-- **C05.** When both operands have numeric types and typing succeeds, the result is numeric and
loses no numeric range of either operand. -/
theorem C05_arithmetic_covers (a b c : Ty) (ha : Numeric a) (hb : Numeric b)
    (h : arithmeticType a b = .ok c) : Numeric c ∧ Covers c a ∧ Covers c b := by
  have cls : ∀ {t : Ty}, Numeric t → t.isNumeric = true := by
    intro t ht
    cases t with
    | simple s => cases s <;> simp [Numeric, intBits, approxBits] at ht <;> rfl
    | decimal p s => rfl
    | _ => simp [Numeric, intBits, approxBits] at ht
  have hna := cls ha
  have hnb := cls hb
  by_cases he : a = b
  · subst he
    simp only [arithmeticType, if_true] at h
    cases h
    exact ⟨ha, covers_refl _, covers_refl _⟩
  have decCov : ∀ (p s q r : ℤ), s ≤ r → p - s ≤ q - r → Covers (.decimal q r) (.decimal p s) :=
    fun p s q r h1 h2 => covers_of_imp rfl rfl (fun x => holds_dec_mono h1 h2)
  have intDecCov : ∀ {t : Ty} (n : ℕ) (d q r : ℤ), intBits t = some n → intDigits t = some d →
      approxBits t = none → 0 ≤ r → d ≤ q - r → Covers (.decimal q r) t :=
    fun n d q r h1 h2 h3 h4 h5 => covers_of_imp h3 rfl
      (fun x hx => holds_dec_mono h4 (by omega) (holds_int_dec h1 h2 hx))
  unfold arithmeticType at h
  rw [if_neg he] at h
  rcases numeric_cases hna with rfl | rfl | rfl | rfl | rfl | rfl | ⟨p, s, rfl⟩ <;>
  rcases numeric_cases hnb with rfl | rfl | rfl | rfl | rfl | rfl | ⟨p', s', rfl⟩ <;>
  first
  | exact absurd rfl he
  | (cases h; exact ⟨.inl rfl, int_covers rfl rfl (by decide), int_covers rfl rfl (by decide)⟩)
  | (cases h; refine ⟨.inr rfl, ?_, ?_⟩ <;> simp [Covers, approxBits])
  | (obtain ⟨P, S, rfl, h1, h2, h3, h4, -, -⟩ := commonDecimal_spec h
     first
     | exact ⟨trivial, decCov _ _ _ _ h1 h3, decCov _ _ _ _ h2 h4⟩
     | exact ⟨trivial, intDecCov _ _ _ _ rfl rfl rfl h1 (by omega), decCov _ _ _ _ h2 h4⟩
     | exact ⟨trivial, decCov _ _ _ _ h1 h3, intDecCov _ _ _ _ rfl rfl rfl h2 (by omega)⟩)

/-- The only failure of numeric typing: the combined precision exceeds 38 digits. -/
theorem C05_failure (a b : Ty) (ha : a.isNumeric = true) (hb : b.isNumeric = true) (e : Err)
    (va : InRange a) (vb : InRange b)
    (h : arithmeticType a b = .error e) : e = .assertion ∧ (a.isDecimal = true ∨ b.isDecimal = true) := by
  by_cases he : a = b
  · subst he; simp [arithmeticType] at h
  unfold arithmeticType at h
  rw [if_neg he] at h
  have dec : ∀ p s q r, commonDecimal (.decimal p s) (.decimal q r) = .error e → e = .assertion := by
    intro p s q r hd
    simp only [commonDecimal, mkDecimal_eq] at hd
    split at hd <;> cases hd; rfl
  rcases numeric_cases ha with rfl | rfl | rfl | rfl | rfl | rfl | ⟨p, s, rfl⟩ <;>
  rcases numeric_cases hb with rfl | rfl | rfl | rfl | rfl | rfl | ⟨p', s', rfl⟩ <;>
  first
  | exact absurd rfl he
  | exact ⟨dec _ _ _ _ h, .inl rfl⟩
  | exact ⟨dec _ _ _ _ h, .inr rfl⟩
  | cases h

example : Numeric (.simple .integer) ∧ Numeric (.decimal 5 2) ∧
    arithmeticType (.simple .integer) (.decimal 5 2) = .ok (.decimal 12 2) := by
  exact ⟨.inl rfl, trivial, by decide⟩
example : arithmeticType (.decimal 38 0) (.decimal 38 38) = .error .assertion := by decide

/-! ## C06: equal types, integral types -/

/-- **C06.** Combining a type with itself returns that type. -/
theorem C06_equal_types (a : Ty) : arithmeticType a a = .ok a := by simp [arithmeticType]

/-- **C06.** Two integral types combine to the wider of the two. -/
theorem C06_integral_wider (a b : Ty) (n m : ℕ) (ha : intBits a = some n) (hb : intBits b = some m) :
    arithmeticType a b = .ok (if n ≤ m then b else a) := by
  have cls : ∀ {t : Ty} {k : ℕ}, intBits t = some k →
      t = .simple .tinyint ∧ k = 8 ∨ t = .simple .smallint ∧ k = 16 ∨ t = .simple .integer ∧ k = 32 ∨
      t = .simple .bigint ∧ k = 64 := by
    intro t k ht
    cases t with
    | simple s => cases s <;> simp [intBits] at ht <;> simp [ht]
    | _ => simp [intBits] at ht
  rcases cls ha with ⟨rfl, rfl⟩ | ⟨rfl, rfl⟩ | ⟨rfl, rfl⟩ | ⟨rfl, rfl⟩ <;>
  rcases cls hb with ⟨rfl, rfl⟩ | ⟨rfl, rfl⟩ | ⟨rfl, rfl⟩ | ⟨rfl, rfl⟩ <;> rfl

example : intBits (.simple .smallint) = some 16 ∧ intBits (.simple .integer) = some 32 ∧
    arithmeticType (.simple .integer) (.simple .smallint) = .ok (.simple .integer) := by decide

/-! ## C07: the common supertype is an upper bound -/

/-- **C07 (partial).** Whenever `common_supertype` returns a type other than the unknown type, both
arguments can be widened to it, except when one is a CHAR and the other a VARCHAR longer than any
CHAR.  Missing: those two cases, in which the property is false of the code (`C07_unknown_witness`,
`C07_varchar_witness`). -/
theorem C07_supertype_upper_bound_partial (a b c : Ty) (h : commonSupertype a b = .ok c)
    (hu : c ≠ .unknown ∨ a = b) (hv : ¬ LongVarcharWithChar a b) : Widens a c ∧ Widens b c := by
  by_cases he : a = b
  · subst he
    rw [supertype_self] at h
    cases h
    exact ⟨.refl _, .refl _⟩
  have hcu : c ≠ .unknown := hu.resolve_right he
  by_cases hn : a.typeName = b.typeName
  · exact absurd (supertype_same hn he c h) hcu
  rw [supertype_diff hn, crossFamily_ok] at h
  rcases h with ⟨h1, h2, h⟩ | ⟨h1, h2, h⟩ | ⟨h1, h2, h⟩ | ⟨h1, h2, h⟩
  · rcases numeric_cases h1 with rfl | rfl | rfl | rfl | rfl | rfl | ⟨p, s, rfl⟩ <;>
    rcases numeric_cases h2 with rfl | rfl | rfl | rfl | rfl | rfl | ⟨p', s', rfl⟩ <;>
    first
    | exact absurd rfl he
    | exact absurd rfl hn
    | (cases h; exact ⟨.int rfl rfl (by decide), .int rfl rfl (by decide)⟩)
    | (cases h; exact ⟨.intReal rfl, .refl _⟩)
    | (cases h; exact ⟨.intDouble rfl, .refl _⟩)
    | (cases h; exact ⟨.refl _, .intReal rfl⟩)
    | (cases h; exact ⟨.refl _, .intDouble rfl⟩)
    | (cases h; exact ⟨.refl _, .decReal⟩)
    | (cases h; exact ⟨.refl _, .decDouble⟩)
    | (cases h; exact ⟨.decReal, .refl _⟩)
    | (cases h; exact ⟨.decDouble, .refl _⟩)
    | (cases h; exact ⟨.realDouble, .refl _⟩)
    | (cases h; exact ⟨.refl _, .realDouble⟩)
    | (obtain ⟨P, S, rfl, h1, h2, h3, h4, -, -⟩ := commonDecimal_spec h
       first
       | exact ⟨.intDec rfl h1 (by omega), .dec h2 h4⟩
       | exact ⟨.dec h1 h3, .intDec rfl h2 (by omega)⟩)
  · rcases string_cases h1 with ⟨n, rfl⟩ | ⟨n, rfl⟩ <;> rcases string_cases h2 with ⟨m, rfl⟩ | ⟨m, rfl⟩
    · exact absurd rfl hn
    · cases m with
      | none => exact absurd (fun k hk => by cases hk) hv
      | some m =>
        have hm : m ≤ 65536 := by
          by_contra hc
          exact hv (fun k hk => by cases hk; omega)
        have : commonString (.char n) (.varchar (some m)) = .ok (.char (max n (min maxCharLength m))) := rfl
        rw [this] at h
        cases h
        have : maxCharLength = 65536 := rfl
        exact ⟨.char (by omega), .varcharChar (by omega)⟩
    · cases n with
      | none => exact absurd (fun k hk => by cases hk) hv
      | some n =>
        have hm : n ≤ 65536 := by
          by_contra hc
          exact hv (fun k hk => by cases hk; omega)
        have : commonString (.varchar (some n)) (.char m) = .ok (.char (max (min maxCharLength n) m)) := rfl
        rw [this] at h
        cases h
        have : maxCharLength = 65536 := rfl
        exact ⟨.varcharChar (by omega), .char (by omega)⟩
    · exact absurd rfl hn
  · rcases hll_cases h1 with rfl | rfl <;> rcases hll_cases h2 with rfl | rfl <;>
    first
    | exact absurd rfl hn
    | (cases h; exact ⟨.refl _, .hll⟩)
    | (cases h; exact ⟨.hll, .refl _⟩)
  · rcases datetime_cases h1 with rfl | ⟨p, z, rfl⟩ | ⟨p, z, rfl⟩ <;>
    rcases datetime_cases h2 with rfl | ⟨p', z', rfl⟩ | ⟨p', z', rfl⟩ <;>
    first
    | exact absurd rfl hn
    | exact absurd (Except.ok.inj h).symm hcu
    | (cases h; exact ⟨.dateTimestamp, .refl _⟩)
    | (cases h; exact ⟨.timeTimestamp, .refl _⟩)
    | (cases h; exact ⟨.refl _, .dateTimestamp⟩)
    | (cases h; exact ⟨.refl _, .timeTimestamp⟩)

/-- C07 is false of the code: two decimals have the unknown type as common supertype, to which
neither can be widened. -/
theorem C07_unknown_witness : commonSupertype (.decimal 5 2) (.decimal 6 2) = .ok .unknown ∧
    ¬ Widens (.decimal 5 2) .unknown := by
  refine ⟨by decide, ?_⟩
  intro h
  cases h with
  | int h1 _ _ => simp [intDigits] at h1

/-- C07 is false of the code: an unbounded VARCHAR and a CHAR(3) have CHAR(3) as common supertype. -/
theorem C07_varchar_witness : commonSupertype (.varchar none) (.char 3) = .ok (.char 3) ∧
    ¬ Widens (.varchar none) (.char 3) := by
  refine ⟨by decide, ?_⟩
  intro h
  cases h with
  | int h1 _ _ => simp [intDigits] at h1

example : commonSupertype (.simple .bigint) (.decimal 10 5) = .ok (.decimal 24 5) ∧
    ¬ LongVarcharWithChar (.simple .bigint) (.decimal 10 5) ∧ (.decimal 24 5 : Ty) ≠ .unknown := by
  exact ⟨by decide, fun h => h, by decide⟩
example : commonSupertype (.varchar (some 7)) (.char 3) = .ok (.char 7) ∧
    ¬ LongVarcharWithChar (.varchar (some 7)) (.char 3) := by
  refine ⟨by decide, fun h => ?_⟩
  have := h 7 rfl
  omega

/-! ## C09: same-named types -/

/-- C09 is false of the code, for every instance: the common supertype of two different types with
one name, when it does not raise, is always the unknown type. -/
theorem C09_supertype_loses_parameters (a b c : Ty) (hn : a.typeName = b.typeName) (hne : a ≠ b)
    (h : commonSupertype a b = .ok c) : c = .unknown := supertype_same hn hne c h

/-- ... and it does not always raise. -/
theorem C09_witness : ∃ a b : Ty, a.typeName = b.typeName ∧ a ≠ b ∧ commonSupertype a b = .ok .unknown :=
  ⟨.varchar (some 1), .varchar (some 2), by decide, by decide, by decide⟩

/-- The least type of the same name to which both can be widened by changing parameters only. -/
inductive ParamWiden : Ty → Ty → Ty → Prop
  | decimal (p s q r) : ParamWiden (.decimal p s) (.decimal q r)
      (.decimal (max (p - s) (q - r) + max s r) (max s r))
  | varchar (n m) : ParamWiden (.varchar (some n)) (.varchar (some m)) (.varchar (some (max n m)))
  | varcharL (n) : ParamWiden (.varchar none) (.varchar n) (.varchar none)
  | varcharR (n) : ParamWiden (.varchar n) (.varchar none) (.varchar none)
  | char (n m) : ParamWiden (.char n) (.char m) (.char (max n m))

/-- **C09 (partial).** The conversion that arithmetic typing uses for two different decimals,
varchars or chars is the parameter-wise widening.  Missing: `common_supertype` itself, where the
property is false (`C09_supertype_loses_parameters`), and times/timestamps, which always raise
(`C09_times_raise`). -/
theorem C09_same_named_partial (a b c : Ty) (hn : a.typeName = b.typeName)
    (hk : a.isDecimal = true ∨ a.isString = true) (hne : a ≠ b) (h : arithmeticType a b = .ok c) :
    ParamWiden a b c := by
  unfold arithmeticType at h
  rw [if_neg hne, if_pos hn] at h
  rcases hk with hk | hk
  · cases a <;> simp [Ty.isDecimal] at hk
    cases b <;> first
      | (simp only [commonSameType, commonDecimal, mkDecimal_eq] at h
         split at h
         · cases h; exact .decimal _ _ _ _
         · cases h)
      | cases hn
      | (rename_i s; cases s <;> cases hn)
  · rcases string_cases hk with ⟨n, rfl⟩ | ⟨n, rfl⟩
    · cases b <;> first
        | (cases h; exact .char _ _)
        | cases hn
        | (rename_i s; cases s <;> cases hn)
    · cases b <;> first
        | (rename_i m; cases n <;> cases m <;> cases h <;>
            first | exact .varchar _ _ | exact .varcharL _ | exact .varcharR _)
        | cases hn
        | (rename_i s; cases s <;> cases hn)

/-- Combining two different TIME types, or two different TIMESTAMP types, always raises. -/
theorem C09_times_raise (p q : Option Int) (y z : Bool) (c : Ty) :
    (Ty.time p y ≠ .time q z → commonSupertype (.time p y) (.time q z) ≠ .ok c ∧
      arithmeticType (.time p y) (.time q z) ≠ .ok c) ∧
    (Ty.timestamp p y ≠ .timestamp q z → commonSupertype (.timestamp p y) (.timestamp q z) ≠ .ok c ∧
      arithmeticType (.timestamp p y) (.timestamp q z) ≠ .ok c) := by
  have fin : ∀ (x : Except Err Ty), (∀ t, x ≠ .ok t) →
      (x >>= fun _ => (.ok .unknown : Except Err Ty)) ≠ .ok c := by
    intro x hx h
    cases x with
    | error e => cases h
    | ok y => exact hx y rfl
  have hnt : (Ty.time p y).typeName = (Ty.time q z).typeName := rfl
  have hns : (Ty.timestamp p y).typeName = (Ty.timestamp q z).typeName := rfl
  refine ⟨fun hne => ⟨?_, ?_⟩, fun hne => ⟨?_, ?_⟩⟩
  · rw [commonSupertype.eq_def, if_pos hnt, if_neg hne]
    exact fin _ (commonTime_error _ _ _ _)
  · unfold arithmeticType
    rw [if_neg hne, if_pos hnt]
    exact commonTime_error _ _ _ _ _
  · rw [commonSupertype.eq_def, if_pos hns, if_neg hne]
    exact fin _ (commonTimestamp_error _ _ _ _)
  · unfold arithmeticType
    rw [if_neg hne, if_pos hns]
    exact commonTimestamp_error _ _ _ _ _

example : arithmeticType (.decimal 5 2) (.decimal 6 4) = .ok (.decimal 7 4) := by decide

end Treeno.Props
