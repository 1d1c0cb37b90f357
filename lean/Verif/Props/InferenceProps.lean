import Verif.Lemmas.Digits
import Verif.Lemmas.Conversions
import Verif.Spec.Numeric
import Mathlib.Tactic.Linarith
import Mathlib.Tactic.NormNum
import Mathlib.Tactic.Ring
/-!
# Literal types: properties C10 and C11
-/
set_option autoImplicit false
namespace Treeno.Props
open Treeno Spec

/-! ## C10: integer literals -/

/-- **C10.** An integer literal is INTEGER exactly when it fits in 32 signed bits and BIGINT
otherwise. -/
theorem C10_integer_choice (v : ℤ) :
    (Holds (.simple .integer) v → inferIntegral v = .simple .integer) ∧
    (¬ Holds (.simple .integer) v → inferIntegral v = .simple .bigint) := by
  have key : Holds (.simple .integer) v ↔ (-(0x7FFFFFFF + 1) ≤ v ∧ v ≤ 0x7FFFFFFF) := by
    constructor
    · rintro ⟨n, hn, i, hi, h1, h2⟩
      cases hn
      have : v = i := by exact_mod_cast hi
      subst this
      norm_num at h1 h2
      omega
    · rintro ⟨h1, h2⟩
      exact ⟨32, rfl, v, rfl, by norm_num; omega, by norm_num; omega⟩
  unfold inferIntegral
  exact ⟨fun h => if_pos (key.1 h), fun h => if_neg (fun h' => h (key.2 h'))⟩

/-- **C10 (partial).** The chosen type holds every value of 64 signed bits.  Missing: integers
beyond that range, for which the claim is false (`C10_overflow_witness`). -/
theorem C10_integer_held_partial (v : ℤ) (h1 : -2 ^ 63 ≤ v) (h2 : v < 2 ^ 63) :
    Holds (inferIntegral v) v := by
  by_cases h : Holds (.simple .integer) v
  · rw [(C10_integer_choice v).1 h]; exact h
  · rw [(C10_integer_choice v).2 h]
    exact ⟨64, rfl, v, rfl, h1, h2⟩

/-- C10 is false of the code for integers that need more than 64 bits. -/
theorem C10_overflow_witness : ¬ Holds (inferIntegral (2 ^ 63)) ((2 ^ 63 : ℤ) : ℚ) := by
  rintro ⟨n, hn, i, hi, h1, h2⟩
  have hn' : n = 64 := by
    have : intBits (inferIntegral (2 ^ 63)) = some 64 := by decide
    rw [this] at hn; cases hn; rfl
  subst hn'
  have : (2:ℤ) ^ 63 = i := by exact_mod_cast hi
  omega

example : inferIntegral 2147483647 = .simple .integer ∧ inferIntegral 2147483648 = .simple .bigint ∧
    inferIntegral (-2147483648) = .simple .integer ∧ inferIntegral (-2147483649) = .simple .bigint := by
  decide

/-! ## C11: decimal literals -/

/-- The number a `Decimal` denotes. -/
def decValue (d : Dec) : ℚ := (if d.neg then -1 else 1) * d.coeff * (10 : ℚ) ^ d.exp

/-- `str(d)` uses plain notation (no exponent). -/
def PlainNotation (d : Dec) : Prop := d.exp ≤ 0 ∧ -6 < d.exp + (natStr d.coeff).length

theorem not_dot_of_digit {c : Char} (h : isDigit c = true) : c ≠ '.' := by
  rintro rfl; revert h; decide

/-- The text of a plain decimal has `-exp` characters after the dot and at least as many characters
before it as needed. -/
theorem dec_str_plain (d : Dec) (h : PlainNotation d) :
    ∃ (sign ip : Str), (∀ c ∈ sign, c ≠ '.') ∧ (∀ c ∈ ip, c ≠ '.') ∧
      ((d.exp = 0 ∧ d.str = sign ++ ip ∧ ip = natStr d.coeff) ∨
       (d.exp < 0 ∧ ∃ fp : Str, (∀ c ∈ fp, c ≠ '.') ∧ d.str = sign ++ ip ++ '.' :: fp ∧
          (fp.length : ℤ) = - d.exp ∧ (natStr d.coeff).length ≤ ip.length + fp.length)) := by
  obtain ⟨h1, h2⟩ := h
  have hlen : 0 < (natStr d.coeff).length := List.length_pos_iff.2 (natStr_ne_nil _)
  have hd : ∀ c ∈ natStr d.coeff, c ≠ '.' := fun c hc => not_dot_of_digit (natStr_digits _ c hc)
  have hz : ∀ (n : ℕ), ∀ c ∈ List.replicate n '0', c ≠ '.' := by
    intro n c hc
    rw [(List.mem_replicate.1 hc).2]; decide
  refine ⟨if d.neg then c% "-" else [], ?_⟩
  have hs : ∀ c ∈ (if d.neg then c% "-" else []), c ≠ '.' := by
    cases d.neg <;> simp
  unfold Dec.str
  generalize natStr d.coeff = ds at *
  generalize (if d.neg = true then c% "-" else []) = sg at *
  have hdp : (if d.exp ≤ 0 ∧ d.exp + (ds.length : ℤ) > -6 then d.exp + (ds.length : ℤ) else 1)
      = d.exp + ds.length := if_pos ⟨h1, h2⟩
  simp only [hdp]
  by_cases hz0 : d.exp + (ds.length : ℤ) ≤ 0
  · refine ⟨c% "0", hs, by simp, .inr ⟨by omega, List.replicate (-(d.exp + (ds.length : ℤ))).toNat '0' ++ ds, ?_, ?_, ?_, ?_⟩⟩
    · intro c hc
      rcases List.mem_append.1 hc with hc | hc
      · exact hz _ c hc
      · exact hd c hc
    · simp [hz0]
    · simp; omega
    · simp; omega
  · by_cases he : d.exp = 0
    · refine ⟨ds, hs, hd, .inl ⟨he, ?_, rfl⟩⟩
      have hne : ds ≠ [] := List.length_pos_iff.1 hlen
      simp [he, hne]
    · have hge : ¬ (d.exp + (ds.length : ℤ) ≥ ds.length) := by omega
      refine ⟨ds.take (d.exp + ds.length).toNat, hs, fun c hc => hd c (List.mem_of_mem_take hc),
        .inr ⟨by omega, ds.drop (d.exp + ds.length).toNat, fun c hc => hd c (List.mem_of_mem_drop hc), ?_, ?_, ?_⟩⟩
      · simp [hz0, hge]
      · simp; omega
      · simp; omega

theorem count_dot {s : Str} (h : ∀ c ∈ s, c ≠ '.') : s.count '.' = 0 := by
  rw [List.count_eq_zero]; exact fun hm => h _ hm rfl

theorem idxOf_dot (s t : Str) (h : ∀ c ∈ s, c ≠ '.') : (s ++ '.' :: t).idxOf '.' = s.length := by
  induction s with
  | nil => simp
  | cons a s ih =>
    have : a ≠ '.' := h a (by simp)
    have hb : (a == '.') = false := by simpa using this
    simp [List.idxOf_cons, hb, ih (fun c hc => h c (by simp [hc]))]

/-- **C11 (partial).** If the text of a decimal uses plain notation and inference succeeds, the
inferred type holds the value exactly: it has enough integral digits and enough fractional digits.
Missing: decimals whose text uses an exponent, for which the claim is false
(`C11_exponent_witness`, `C11_fraction_witness`). -/
theorem C11_decimal_held_partial (d : Dec) (t : Ty) (hp : PlainNotation d)
    (h : inferDecimal d = .ok t) : Holds t (decValue d) := by
  obtain ⟨sign, ip, hs, hi, hc⟩ := dec_str_plain d hp
  have hlt := natStr_lt d.coeff
  have signed : ∀ (p s : ℤ) (n : ℕ), d.exp = -s → (n : ℤ) ≤ p → (natStr d.coeff).length ≤ n →
      Holds (.decimal p s) (decValue d) := by
    intro p s n he hn hl
    refine ⟨if d.neg then -(d.coeff : ℤ) else d.coeff, ?_, ?_⟩
    · unfold decValue
      rw [he]
      cases d.neg <;> simp
    · have : |((if d.neg then -(d.coeff : ℤ) else d.coeff : ℤ) : ℚ)| = (d.coeff : ℚ) := by
        cases d.neg <;> simp
      rw [this]
      calc (d.coeff : ℚ) < ((10 ^ (natStr d.coeff).length : ℕ) : ℚ) := by exact_mod_cast hlt
        _ = (10 : ℚ) ^ ((natStr d.coeff).length : ℤ) := by push_cast; rw [zpow_natCast]
        _ ≤ 10 ^ p := zpow_le_zpow_right₀ (by norm_num) (by omega)
  unfold inferDecimal inferDecimalText at h
  rcases hc with ⟨he, hstr, rfl⟩ | ⟨he, fp, hf, hstr, hl, hlen⟩
  · have hnd : '.' ∉ d.str := by
      rw [hstr]; intro hm
      rcases List.mem_append.1 hm with hm | hm
      · exact hs _ hm rfl
      · exact hi _ hm rfl
    rw [if_pos hnd, mkDecimal_eq] at h
    split at h
    · cases h
      exact signed _ _ d.str.length (by omega) (by omega) (by rw [hstr]; simp)
    · cases h
  · have hd : ¬ '.' ∉ d.str := by rw [hstr]; simp
    have hcount : d.str.count '.' = 1 := by
      rw [hstr]; simp [List.count_append, count_dot hs, count_dot hi, count_dot hf]
    have hidx : d.str.idxOf '.' = (sign ++ ip).length := by
      rw [hstr]; exact idxOf_dot _ _ (by
        intro c hc
        rcases List.mem_append.1 hc with hc | hc
        · exact hs c hc
        · exact hi c hc)
    have htot : d.str.length = (sign ++ ip).length + 1 + fp.length := by rw [hstr]; simp; omega
    rw [if_neg hd, if_pos hcount, mkDecimal_eq, hidx, htot] at h
    simp only [List.length_append] at h
    split at h
    · cases h
      refine signed _ _ (ip.length + fp.length) (by omega) (by push_cast; omega) hlen
    · cases h

/-- Inference raises only when more than 38 characters are needed. -/
theorem C11_raises (d : Dec) (e : Err) (hp : PlainNotation d) (h : inferDecimal d = .error e) :
    e = .assertion ∧ 38 < d.str.length := by
  obtain ⟨sign, ip, hs, hi, hc⟩ := dec_str_plain d hp
  unfold inferDecimal inferDecimalText at h
  rcases hc with ⟨he, hstr, rfl⟩ | ⟨he, fp, hf, hstr, hl, hlen⟩
  · have hnd : '.' ∉ d.str := by
      rw [hstr]; intro hm
      rcases List.mem_append.1 hm with hm | hm
      · exact hs _ hm rfl
      · exact hi _ hm rfl
    rw [if_pos hnd, mkDecimal_eq] at h
    split at h
    · cases h
    · cases h; exact ⟨rfl, by omega⟩
  · have hd : ¬ '.' ∉ d.str := by rw [hstr]; simp
    have hcount : d.str.count '.' = 1 := by
      rw [hstr]; simp [List.count_append, count_dot hs, count_dot hi, count_dot hf]
    rw [if_neg hd, if_pos hcount, mkDecimal_eq] at h
    have hpos : 0 < d.str.length := by rw [hstr]; simp
    split at h
    · cases h
    · cases h; exact ⟨rfl, by omega⟩

/-- C11 is false of the code: `Decimal('1E+10')` is typed DECIMAL(5,0), which cannot hold it. -/
theorem C11_exponent_witness : inferDecimal ⟨false, 1, 10⟩ = .ok (.decimal 5 0) ∧
    ¬ Holds (.decimal 5 0) (decValue ⟨false, 1, 10⟩) := by
  refine ⟨by decide, ?_⟩
  rintro ⟨m, hm, hlt⟩
  have hv : decValue ⟨false, 1, 10⟩ = 10000000000 := by
    unfold decValue; norm_num
  rw [hv] at hm
  have : (m : ℚ) = 10000000000 := by rw [hm]; simp
  rw [this] at hlt
  norm_num at hlt

/-- C11 is false of the code: `Decimal('1E-7')` is typed DECIMAL(4,0), which has no fractional
digits. -/
theorem C11_fraction_witness : inferDecimal ⟨false, 1, -7⟩ = .ok (.decimal 4 0) ∧
    ¬ Holds (.decimal 4 0) (decValue ⟨false, 1, -7⟩) := by
  refine ⟨by decide, ?_⟩
  rintro ⟨m, hm, -⟩
  have hv : decValue ⟨false, 1, -7⟩ = 1 / 10000000 := by
    unfold decValue; norm_num
  rw [hv] at hm
  have h1 : (m : ℚ) * 10000000 = 1 := by
    have : (m : ℚ) = 1 / 10000000 := by rw [hm]; simp
    rw [this]; norm_num
  have h2 : m * 10000000 = 1 := by exact_mod_cast h1
  omega

example : PlainNotation ⟨true, 12345, -2⟩ ∧ inferDecimal ⟨true, 12345, -2⟩ = .ok (.decimal 6 2) :=
  ⟨⟨by decide, by decide⟩, by decide⟩

end Treeno.Props
