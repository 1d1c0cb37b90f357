import Verif.Double
import Verif.Spec.DoubleSpec
import Verif.Lemmas.Digits
import Mathlib.Tactic.Ring
import Mathlib.Tactic.FieldSimp
import Mathlib.Tactic.NormNum
import Mathlib.Tactic.Linarith
import Mathlib.Tactic.Positivity
/-!
# Rounding to binary64 and printing of floats
-/
set_option autoImplicit false
namespace Treeno
open Spec

/-! ## Powers -/

theorem zpow_split {b : ℚ} (hb : 0 < b) (e : ℤ) : b ^ e = b ^ e.toNat / b ^ (-e).toNat := by
  rcases le_total 0 e with h | h
  · rw [show (-e).toNat = 0 by omega, pow_zero, div_one, ← zpow_natCast, Int.toNat_of_nonneg h]
  · rw [show e.toNat = 0 by omega, pow_zero, ← zpow_natCast, Int.toNat_of_nonneg (by omega), zpow_neg]
    field_simp

/-- `a / b` in units of a power. -/
theorem scaled (n d p : ℕ) (hd : 0 < d) (hp : 0 < p) (e : ℤ) :
    ((n * p ^ (-e).toNat : ℕ) : ℚ) / (d * p ^ e.toNat : ℕ) = (n / d : ℚ) / (p : ℚ) ^ e := by
  rw [zpow_split (by exact_mod_cast hp)]
  push_cast
  have h1 : (p : ℚ) ^ e.toNat ≠ 0 := by positivity
  have h2 : (p : ℚ) ^ (-e).toNat ≠ 0 := by positivity
  have h3 : (d : ℚ) ≠ 0 := by positivity
  field_simp

theorem le_scaled (n d p : ℕ) (hd : 0 < d) (hp : 0 < p) (e : ℤ) :
    d * p ^ e.toNat ≤ n * p ^ (-e).toNat ↔ (p : ℚ) ^ e ≤ n / d := by
  have h1 : (0 : ℚ) < (p : ℚ) ^ e := by positivity
  have h2 : (0 : ℚ) < (d * p ^ e.toNat : ℕ) := by positivity
  rw [← Nat.cast_le (α := ℚ), ← one_le_div₀ h1, ← scaled n d p hd hp, one_le_div₀ h2]

/-! ## Rounding to an integer -/

theorem div_eq (a b : ℕ) (hb : 0 < b) : (a / b : ℚ) = (a / b : ℕ) + (a % b : ℕ) / (b : ℚ) := by
  have h : (b : ℚ) ≠ 0 := by positivity
  have e : (a : ℚ) = b * (a / b : ℕ) + (a % b : ℕ) := by exact_mod_cast (Nat.div_add_mod a b).symm
  field_simp
  linarith

theorem roundQ_half (a b : ℕ) (hb : 0 < b) : |(a / b : ℚ) - roundQ a b| ≤ 1 / 2 ∧
    (|(a / b : ℚ) - roundQ a b| = 1 / 2 → Even (roundQ a b)) := by
  have hb' : (0 : ℚ) < b := by exact_mod_cast hb
  have hr : ((a % b : ℕ) : ℚ) < b := by exact_mod_cast Nat.mod_lt a hb
  have hr0 : (0 : ℚ) ≤ (a % b : ℕ) := by positivity
  have e := div_eq a b hb
  have f0 : 0 ≤ ((a % b : ℕ) : ℚ) / b := by positivity
  have f1 : ((a % b : ℕ) : ℚ) / b < 1 := by rw [div_lt_one hb']; exact hr
  unfold roundQ
  split
  · rename_i h
    have g : 1 / 2 ≤ ((a % b : ℕ) : ℚ) / b := by
      rw [le_div_iff₀ hb']
      have : b ≤ 2 * (a % b) := by omega
      have : (b : ℚ) ≤ 2 * (a % b : ℕ) := by exact_mod_cast this
      linarith
    have e2 : |(a / b : ℚ) - ((a / b + 1 : ℕ) : ℚ)| = 1 - ((a % b : ℕ) : ℚ) / b := by
      rw [e]; push_cast
      rw [abs_of_nonpos (by linarith)]; ring
    rw [e2]
    refine ⟨by linarith, fun h2 => ?_⟩
    have h3 : 2 * (a % b) = b := by
      have : ((a % b : ℕ) : ℚ) / b = 1 / 2 := by linarith
      rw [div_eq_iff (ne_of_gt hb')] at this
      have : (2 * (a % b : ℕ) : ℚ) = b := by linarith
      exact_mod_cast this
    rcases h with h | h
    · omega
    · rw [Nat.even_iff]; omega
  · rename_i h
    have g : ((a % b : ℕ) : ℚ) / b ≤ 1 / 2 := by
      rw [div_le_iff₀ hb']
      have : 2 * (a % b) ≤ b := by omega
      have : (2 * (a % b : ℕ) : ℚ) ≤ b := by exact_mod_cast this
      linarith
    have e2 : |(a / b : ℚ) - ((a / b : ℕ) : ℚ)| = ((a % b : ℕ) : ℚ) / b := by
      rw [e, abs_of_nonneg (by linarith)]; ring
    rw [e2]
    refine ⟨g, fun h2 => ?_⟩
    have h3 : 2 * (a % b) = b := by
      rw [div_eq_iff (ne_of_gt hb')] at h2
      have : (2 * (a % b : ℕ) : ℚ) = b := by linarith
      exact_mod_cast this
    rw [Nat.even_iff]; omega

/-- An integer within one half is the nearest. -/
theorem near_int {x : ℚ} {q : ℕ} (h : |x - q| ≤ 1 / 2) (z : ℤ) : |x - q| ≤ |x - z| ∧
    (|x - q| = |x - z| → (z : ℚ) ≠ q → |x - q| = 1 / 2) := by
  by_cases e : z = (q : ℤ)
  · subst e
    push_cast
    exact ⟨le_refl _, fun _ h => absurd rfl h⟩
  · have h1 : (1 : ℚ) ≤ |(z : ℚ) - q| := by
      have : (1 : ℤ) ≤ |z - q| := Int.one_le_abs (sub_ne_zero.2 e)
      exact_mod_cast this
    have h2 : |(z : ℚ) - q| ≤ |x - q| + |x - z| := by
      have := abs_sub_abs_le_abs_sub (x - q) (x - z)
      calc |(z : ℚ) - q| = |(x - q) - (x - z)| := by ring_nf
        _ ≤ |x - q| + |x - z| := abs_sub _ _
    exact ⟨by linarith, fun h3 _ => by linarith⟩

/-! ## The last bit -/

theorem log2_bounds (n d : ℕ) (hn : n ≠ 0) (hd : 0 < d) :
    (2 : ℚ) ^ (52 + ((n.log2 : ℤ) - d.log2 - 53)) ≤ n / d ∧ (n / d : ℚ) < 2 ^ (54 + ((n.log2 : ℤ) - d.log2 - 53)) := by
  have hd' : (0 : ℚ) < d := by exact_mod_cast hd
  have n1 : (2 : ℚ) ^ (n.log2 : ℤ) ≤ n := by rw [zpow_natCast]; exact_mod_cast Nat.log2_self_le hn
  have n2 : (n : ℚ) < 2 ^ ((n.log2 : ℤ) + 1) := by
    rw [← Nat.cast_succ, zpow_natCast]; exact_mod_cast Nat.lt_log2_self
  have d1 : (2 : ℚ) ^ (d.log2 : ℤ) ≤ d := by rw [zpow_natCast]; exact_mod_cast Nat.log2_self_le (by omega)
  have d2 : (d : ℚ) < 2 ^ ((d.log2 : ℤ) + 1) := by
    rw [← Nat.cast_succ, zpow_natCast]; exact_mod_cast Nat.lt_log2_self
  have p : (0 : ℚ) < 2 ^ (52 + ((n.log2 : ℤ) - d.log2 - 53)) := by positivity
  have p' : (0 : ℚ) < 2 ^ (54 + ((n.log2 : ℤ) - d.log2 - 53)) := by positivity
  constructor
  · rw [le_div_iff₀ hd']
    calc (2 : ℚ) ^ (52 + ((n.log2 : ℤ) - d.log2 - 53)) * d ≤ 2 ^ (52 + ((n.log2 : ℤ) - d.log2 - 53)) * 2 ^ ((d.log2 : ℤ) + 1) :=
          mul_le_mul_of_nonneg_left d2.le p.le
      _ = 2 ^ (n.log2 : ℤ) := by rw [← zpow_add₀ (by norm_num)]; congr 1; ring
      _ ≤ n := n1
  · rw [div_lt_iff₀ hd']
    calc (n : ℚ) < 2 ^ ((n.log2 : ℤ) + 1) := n2
      _ = 2 ^ (54 + ((n.log2 : ℤ) - d.log2 - 53)) * 2 ^ (d.log2 : ℤ) := by rw [← zpow_add₀ (by norm_num)]; congr 1; ring
      _ ≤ 2 ^ (54 + ((n.log2 : ℤ) - d.log2 - 53)) * d := mul_le_mul_of_nonneg_left d1 p'.le

/-- The last bit of a number with 53 bits, or the last that there is. -/
def LastBit (v : ℚ) (e : ℤ) : Prop := -1074 ≤ e ∧ v < 2 ^ (53 + e) ∧ (e = -1074 ∨ 2 ^ (52 + e) ≤ v)

theorem two_le {a b : ℤ} (h : a ≤ b) : (2 : ℚ) ^ a ≤ 2 ^ b := zpow_le_zpow_right₀ (by norm_num) h
theorem two_add (a b : ℤ) : (2 : ℚ) ^ (a + b) = 2 ^ a * 2 ^ b := zpow_add₀ (by norm_num) a b

theorem lastBit_spec (n d : ℕ) (hd : 0 < d) (e : ℤ) (h1 : (2 : ℚ) ^ (52 + e) ≤ n / d) (h2 : (n / d : ℚ) < 2 ^ (54 + e)) :
    LastBit (n / d) (lastBit n d e) := by
  unfold lastBit
  have key : ∀ e' : ℤ, (2 : ℚ) ^ (52 + e') ≤ n / d → (n / d : ℚ) < 2 ^ (53 + e') → LastBit (n / d) (max (-1074) e') := by
    intro e' a b
    refine ⟨le_max_left _ _, lt_of_lt_of_le b (two_le (by have := le_max_right (-1074) e'; omega)), ?_⟩
    rcases le_total e' (-1074) with h | h
    · exact .inl (max_eq_left h)
    · rw [max_eq_right h]; exact .inr a
  split
  · rename_i h
    rw [le_scaled n d 2 hd (by norm_num)] at h
    refine key _ ?_ ?_
    · rw [show 52 + (e + 1) = 53 + e by ring]; exact h
    · rw [show 53 + (e + 1) = 54 + e by ring]; exact h2
  · rename_i h
    rw [le_scaled n d 2 hd (by norm_num)] at h
    exact key _ h1 (lt_of_not_ge h)

/-! ## The nearest binary64 number -/

def F64.val (m : ℕ) (e : ℤ) : ℚ := m * 2 ^ e

/-- The mantissa has 53 bits, or the exponent is the least. -/
def Canonical (m : ℕ) (e : ℤ) : Prop := m < 2 ^ 53 ∧ (2 ^ 52 ≤ m ∨ e = -1074) ∧ -1074 ≤ e

theorem two_pos (e : ℤ) : (0 : ℚ) < 2 ^ e := by positivity

/-- Multiples of a power of two. -/
theorem multiple {m' : ℕ} {e e' : ℤ} (h : e ≤ e') : ∃ z : ℕ, (m' : ℚ) * 2 ^ e' = z * 2 ^ e := by
  refine ⟨m' * 2 ^ (e' - e).toNat, ?_⟩
  push_cast
  rw [mul_assoc, ← zpow_natCast, Int.toNat_of_nonneg (by omega), ← two_add]
  congr 2; ring

/-- Binary64 numbers with a smaller last bit are below those with 53 bits. -/
theorem below_normal {m' : ℕ} {e e' : ℤ} (hm : m' < 2 ^ 53) (h : e' < e) : (m' : ℚ) * 2 ^ e' < 2 ^ (52 + e) := by
  have h1 : (m' : ℚ) < 2 ^ (53 : ℤ) := by exact_mod_cast hm
  calc (m' : ℚ) * 2 ^ e' < 2 ^ (53 : ℤ) * 2 ^ e' := mul_lt_mul_of_pos_right h1 (two_pos e')
    _ = 2 ^ (53 + e') := (two_add _ _).symm
    _ ≤ 2 ^ (52 + e) := two_le (by omega)

theorem abs_scale {v : ℚ} {q : ℕ} {e : ℤ} : |v - q * 2 ^ e| = |v / 2 ^ e - q| * 2 ^ e := by
  have := two_pos e
  rw [← abs_of_pos this, ← abs_mul, abs_of_pos this]
  congr 1
  field_simp

theorem rounded_near {v : ℚ} {e : ℤ} {q : ℕ} (hl : LastBit v e) (hq : |v / 2 ^ e - q| ≤ 1 / 2) {z : ℚ} (hz : Binary64 z) :
    |v - q * 2 ^ e| ≤ |v - z| ∧ (|v - q * 2 ^ e| = |v - z| → z ≠ q * 2 ^ e → |v / 2 ^ e - q| = 1 / 2) := by
  obtain ⟨m', e', hm, h1, h2, rfl⟩ := hz
  have hp := two_pos e
  rcases le_or_gt e e' with h | h
  · obtain ⟨z, hz⟩ := multiple (m' := m') h
    rw [hz, abs_scale, abs_scale]
    have h := near_int hq z
    push_cast at h
    refine ⟨mul_le_mul_of_nonneg_right h.1 hp.le, fun a b => h.2 (mul_right_cancel₀ hp.ne' a) ?_⟩
    intro c
    rw [c] at b
    exact b rfl
  · have hv : 2 ^ (52 + e) ≤ v := by
      rcases hl.2.2 with h' | h'
      · omega
      · exact h'
    have hz := below_normal hm h
    have k := (near_int hq (2 ^ 52 : ℕ)).1
    have k' : |v - q * 2 ^ e| ≤ |v - 2 ^ (52 + e)| := by
      have : (2 : ℚ) ^ (52 + e) = ((2 ^ 52 : ℕ) : ℚ) * 2 ^ e := by rw [two_add]; norm_num
      rw [this, abs_scale, abs_scale]
      push_cast at k ⊢
      exact mul_le_mul_of_nonneg_right k hp.le
    have s : |v - 2 ^ (52 + e)| < |v - m' * 2 ^ e'| := by
      rw [abs_of_nonneg (by linarith), abs_of_nonneg (by linarith)]
      linarith
    exact ⟨by linarith, fun a _ => absurd a (by linarith)⟩

theorem roundQ_bits {v : ℚ} {e : ℤ} {q : ℕ} (hl : LastBit v e) (hq : |v / 2 ^ e - q| ≤ 1 / 2) :
    q ≤ 2 ^ 53 ∧ (2 ^ 52 ≤ q ∨ e = -1074) := by
  have hp := two_pos e
  have hq' := abs_le.1 hq
  constructor
  · have h : v / 2 ^ e < 2 ^ 53 := by
      rw [div_lt_iff₀ hp]
      have := hl.2.1
      rw [two_add] at this
      exact_mod_cast this
    have : (q : ℚ) < (2 ^ 53 + 1 : ℕ) := by push_cast; linarith
    have : q < 2 ^ 53 + 1 := by exact_mod_cast this
    omega
  · rcases hl.2.2 with h | h
    · exact .inr h
    · left
      rw [two_add] at h
      have h : 2 ^ 52 ≤ v / 2 ^ e := by
        rw [le_div_iff₀ hp]
        exact_mod_cast h
      have : ((2 ^ 52 : ℕ) : ℚ) < (q + 1 : ℕ) := by push_cast; linarith
      have : 2 ^ 52 < q + 1 := by exact_mod_cast this
      omega

theorem carry_fin {q : ℕ} {e : ℤ} (h53 : q ≤ 2 ^ 53) (h52 : 2 ^ 52 ≤ q ∨ e = -1074) (he : -1074 ≤ e) {m : ℕ} {x : ℤ}
    (h : carry q e = .fin m x) : (m : ℚ) * 2 ^ x = q * 2 ^ e ∧ Canonical m x ∧ x ≤ 971 ∧ (Even q → Even m) := by
  unfold carry at h
  split at h
  · rename_i hq
    split at h
    · exact nomatch h
    · cases h
      subst hq
      refine ⟨?_, ⟨by norm_num, .inl (le_refl _), by omega⟩, by omega, fun _ => by decide +kernel⟩
      rw [zpow_add₀ (by norm_num)]
      push_cast; ring
  · rename_i hq
    split at h
    · exact nomatch h
    · cases h
      exact ⟨rfl, ⟨by omega, h52, he⟩, by omega, id⟩

theorem carry_inf {q : ℕ} {e : ℤ} : carry q e = .inf ↔ 971 < e ∨ (q = 2 ^ 53 ∧ e = 971) := by
  unfold carry
  split
  · rename_i h
    split
    · exact ⟨fun _ => by omega, fun _ => rfl⟩
    · exact ⟨nofun, fun h' => by omega⟩
  · rename_i h
    split
    · exact ⟨fun _ => .inl (by assumption), fun _ => rfl⟩
    · exact ⟨nofun, fun h' => by omega⟩

/-- What `toF64` rounds. -/
theorem toF64_eq {n d : ℕ} (hn : n ≠ 0) (hd : 0 < d) : ∃ (q : ℕ) (e : ℤ), toF64 n d = carry q e ∧ LastBit (n / d) e ∧
    |(n / d : ℚ) / 2 ^ e - q| ≤ 1 / 2 ∧ (|(n / d : ℚ) / 2 ^ e - q| = 1 / 2 → Even q) := by
  have hb := log2_bounds n d hn hd
  have hl := lastBit_spec n d hd _ hb.1 hb.2
  have h := roundQ_half (n * 2 ^ (-(lastBit n d ((n.log2 : ℤ) - d.log2 - 53))).toNat)
    (d * 2 ^ (lastBit n d ((n.log2 : ℤ) - d.log2 - 53)).toNat) (by positivity)
  have hs := scaled n d 2 hd (by norm_num) (lastBit n d ((n.log2 : ℤ) - d.log2 - 53))
  rw [show ((2 : ℕ) : ℚ) = 2 by norm_num] at hs
  rw [hs] at h
  refine ⟨_, _, ?_, hl, h.1, h.2⟩
  unfold toF64
  rw [if_neg hn]
  rfl

theorem tooLarge_pos : 0 < tooLarge := mul_pos (by norm_num) (by positivity)

theorem toF64_inf {n d : ℕ} (hd : 0 < d) : toF64 n d = .inf ↔ tooLarge ≤ n / d := by
  by_cases hn : n = 0
  · subst hn
    refine ⟨nofun, fun h => ?_⟩
    rw [Nat.cast_zero, zero_div] at h
    exact absurd tooLarge_pos (not_lt.2 h)
  · obtain ⟨q, e, hx, hl, h1, h2⟩ := toF64_eq hn hd
    have hp := two_pos e
    have hb := roundQ_bits hl h1
    rw [hx, carry_inf]
    have e53 : tooLarge = (2 ^ 53 - 1 / 2) * (2 : ℚ) ^ (971 : ℤ) := rfl
    constructor
    · rintro (h | ⟨rfl, rfl⟩)
      · have hv : (2 : ℚ) ^ (52 + e) ≤ n / d := by
          rcases hl.2.2 with h' | h'
          · omega
          · exact h'
        refine le_trans ?_ (le_trans (two_le (show (53 : ℤ) + 971 ≤ 52 + e by omega)) hv)
        rw [e53, two_add]
        have := two_pos 971
        have h' : (2 : ℚ) ^ 53 - 1 / 2 ≤ 2 ^ (53 : ℤ) := by norm_num
        exact mul_le_mul_of_nonneg_right h' this.le
      · have h3 := (abs_le.1 h1).1
        push_cast at h3
        have h4 : (2 ^ 53 - 1 / 2 : ℚ) ≤ (n / d : ℚ) / 2 ^ (971 : ℤ) := by linarith
        rw [le_div_iff₀ hp] at h4
        rw [e53]; exact h4
    · intro h
      by_contra hc
      rw [not_or] at hc
      have he : e ≤ 971 := by omega
      have hlt := hl.2.1
      have h971 : e = 971 := by
        by_contra hne
        have : (2 : ℚ) ^ (53 + e) ≤ 2 ^ (53 + 970 : ℤ) := two_le (by omega)
        have h' : (n / d : ℚ) < 2 ^ (53 + 970 : ℤ) := lt_of_lt_of_le hlt this
        rw [e53] at h
        have h3 : (2 : ℚ) ^ (53 + 970 : ℤ) = 2 ^ 52 * 2 ^ (971 : ℤ) := by
          rw [show (53 + 970 : ℤ) = 52 + 971 by norm_num, two_add]; rfl
        rw [h3] at h'
        have := lt_of_le_of_lt h h'
        have h4 := lt_of_mul_lt_mul_right this (two_pos 971).le
        norm_num at h4
      subst h971
      have hq : q < 2 ^ 53 := by
        rcases Nat.lt_or_ge q (2 ^ 53) with h' | h'
        · exact h'
        · exact absurd ⟨by omega, rfl⟩ hc.2
      rw [e53, ← le_div_iff₀ hp] at h
      have h3 := (abs_le.1 h1).2
      have hq' : (q : ℚ) ≤ 2 ^ 53 - 1 := by
        have : q + 1 ≤ 2 ^ 53 := hq
        have : ((q + 1 : ℕ) : ℚ) ≤ ((2 ^ 53 : ℕ) : ℚ) := by exact_mod_cast this
        push_cast at this
        linarith
      have hev := h2 (by rw [abs_of_nonneg (by linarith)]; linarith)
      have : (q : ℚ) = 2 ^ 53 - 1 := by linarith
      have : q = 2 ^ 53 - 1 := by
        have : ((q + 1 : ℕ) : ℚ) = ((2 ^ 53 : ℕ) : ℚ) := by push_cast; linarith
        have : q + 1 = 2 ^ 53 := by exact_mod_cast this
        omega
      rw [this] at hev
      exact absurd hev (by decide +kernel)

theorem toF64_fin {n d : ℕ} (hd : 0 < d) {m : ℕ} {e : ℤ} (h : toF64 n d = .fin m e) :
    Canonical m e ∧ e ≤ 971 ∧ Nearest (n / d) (m * 2 ^ e) := by
  by_cases hn : n = 0
  · subst hn
    cases h
    refine ⟨⟨by norm_num, .inr rfl, le_refl _⟩, by norm_num, by simpa using tooLarge_pos, ⟨0, -1074, by norm_num, le_refl _, by norm_num, by norm_num⟩, ?_, ?_⟩
    · intro z hz
      simp
    · intro z hz h1 h2
      simp at h1 h2
      exact absurd (abs_eq_zero.1 h2.symm) h1
  · obtain ⟨q, x, hx, hl, h1, h2⟩ := toF64_eq hn hd
    rw [hx] at h
    have hb := roundQ_bits hl h1
    obtain ⟨e1, hc, h971, hev⟩ := carry_fin hb.1 hb.2 hl.1 h
    have hsmall : (n / d : ℚ) < tooLarge := by
      rw [← not_le]
      intro hle
      have := (toF64_inf hd).2 hle
      rw [hx, h] at this
      exact nomatch this
    refine ⟨hc, h971, hsmall, ⟨m, e, hc.1, hc.2.2, h971, rfl⟩, ?_, ?_⟩
    · intro z hz
      rw [e1]
      exact (rounded_near hl h1 hz).1
    · intro z hz hne heq
      rw [e1] at hne heq
      exact ⟨m, e, hev (h2 ((rounded_near hl h1 hz).2 heq hne)), hc.1, hc.2.1, hc.2.2, h971, rfl⟩

/-! ## Reading back -/

theorem canonical_le {m m' : ℕ} {e e' : ℤ} (h : Canonical m e) (h' : Canonical m' e')
    (hv : (m : ℚ) * 2 ^ e = m' * 2 ^ e') : e' ≤ e := by
  by_contra hlt
  have h1 := below_normal (m' := m) (e' := e) (e := e') h.1 (by omega)
  rcases h'.2.1 with h2 | h2
  · have : (2 : ℚ) ^ (52 + e') ≤ m' * 2 ^ e' := by
      rw [two_add]
      refine mul_le_mul_of_nonneg_right ?_ (two_pos e').le
      have : ((2 ^ 52 : ℕ) : ℚ) ≤ m' := by exact_mod_cast h2
      push_cast at this
      exact_mod_cast this
    linarith
  · have := h.2.2
    omega

theorem canonical_inj {m m' : ℕ} {e e' : ℤ} (h : Canonical m e) (h' : Canonical m' e')
    (hv : (m : ℚ) * 2 ^ e = m' * 2 ^ e') : m = m' ∧ e = e' := by
  have he : e = e' := le_antisymm (canonical_le h' h hv.symm) (canonical_le h h' hv)
  subst he
  exact ⟨by exact_mod_cast mul_right_cancel₀ (two_pos e).ne' hv, rfl⟩

/-- Two binary64 numbers are not near. -/
theorem gap {m : ℕ} {e : ℤ} (h : Canonical m e) {z : ℚ} (hz : Binary64 z) (hne : z ≠ m * 2 ^ e) :
    (m : ℚ) * 2 ^ e ≤ 2 ^ 53 * |z - m * 2 ^ e| := by
  obtain ⟨m', e', hm, h1, h2, rfl⟩ := hz
  have hp := two_pos e
  have hm53 : (m : ℚ) < 2 ^ 53 := by exact_mod_cast h.1
  rcases le_or_gt e e' with hle | hlt
  · obtain ⟨z, hz⟩ := multiple (m' := m') hle
    rw [hz] at hne ⊢
    have : (1 : ℚ) ≤ |(z : ℚ) - m| := by
      have : (1 : ℤ) ≤ |(z : ℤ) - m| := Int.one_le_abs (sub_ne_zero.2 (fun c => hne (by
        have : z = m := by exact_mod_cast c
        rw [this])))
      exact_mod_cast this
    rw [← sub_mul, abs_mul, abs_of_pos hp, ← mul_assoc]
    refine mul_le_mul_of_nonneg_right ?_ hp.le
    linarith
  · have hn : 2 ^ 52 ≤ m := by
      rcases h.2.1 with h' | h'
      · exact h'
      · omega
    obtain ⟨a, ha⟩ := multiple (m' := m') (e := e - 1 - (e - 1 - e')) (e' := e') (by omega)
    have hb : (m' : ℚ) * 2 ^ e' ≤ (2 ^ 53 - 1) * 2 ^ (e - 1) := by
      have h3 : (m' : ℚ) ≤ 2 ^ 53 - 1 := by
        have : m' + 1 ≤ 2 ^ 53 := hm
        have : ((m' + 1 : ℕ) : ℚ) ≤ ((2 ^ 53 : ℕ) : ℚ) := by exact_mod_cast this
        push_cast at this
        linarith
      exact mul_le_mul h3 (two_le (by omega)) (two_pos e').le (by norm_num)
    have hm2 : (m : ℚ) * 2 ^ e = 2 * m * 2 ^ (e - 1) := by
      rw [show e = (e - 1) + 1 by ring, two_add]; ring_nf
    have hp' := two_pos (e - 1)
    have hn' : (2 ^ 52 : ℚ) ≤ m := by exact_mod_cast hn
    have hle : (m' : ℚ) * 2 ^ e' ≤ m * 2 ^ e := by
      rw [hm2]
      refine le_trans hb (mul_le_mul_of_nonneg_right ?_ hp'.le)
      linarith
    rw [abs_sub_comm, abs_of_nonneg (by linarith)]
    have h4 : (2 * (m : ℚ) - (2 ^ 53 - 1)) * 2 ^ (e - 1) ≤ m * 2 ^ e - m' * 2 ^ e' := by
      rw [sub_mul, hm2]; linarith
    refine le_trans ?_ (mul_le_mul_of_nonneg_left h4 (by norm_num))
    rw [hm2, ← mul_assoc]
    refine mul_le_mul_of_nonneg_right ?_ hp'.le
    linarith

/-- A number near enough is read as the same binary64 number. -/
theorem read_back {m : ℕ} {e : ℤ} (h : Canonical m e) (he : e ≤ 971) {n d : ℕ} (hd : 0 < d)
    (hn : 2 ^ 54 * |(n / d : ℚ) - m * 2 ^ e| < m * 2 ^ e) : toF64 n d = .fin m e := by
  have hb : Binary64 ((m : ℚ) * 2 ^ e) := ⟨m, e, h.1, h.2.2, he, rfl⟩
  cases hv : toF64 n d with
  | inf =>
    exfalso
    have h1 := (toF64_inf hd).1 hv
    have h2 : (m : ℚ) * 2 ^ e ≤ (2 ^ 53 - 1) * 2 ^ (971 : ℤ) := by
      have h3 : (m : ℚ) ≤ 2 ^ 53 - 1 := by
        have : m + 1 ≤ 2 ^ 53 := h.1
        have : ((m + 1 : ℕ) : ℚ) ≤ ((2 ^ 53 : ℕ) : ℚ) := by exact_mod_cast this
        push_cast at this
        linarith
      exact mul_le_mul h3 (two_le he) (two_pos e).le (by norm_num)
    have h3 : tooLarge = (2 ^ 53 - 1 / 2) * (2 : ℚ) ^ (971 : ℤ) := rfl
    have hp := two_pos 971
    have h4 := le_abs_self ((n / d : ℚ) - m * 2 ^ e)
    rw [h3] at h1
    generalize (2 : ℚ) ^ (971 : ℤ) = P at *
    nlinarith
  | fin m' e' =>
    obtain ⟨hc, _, hnear⟩ := toF64_fin hd hv
    by_cases heq : (m' : ℚ) * 2 ^ e' = m * 2 ^ e
    · obtain ⟨rfl, rfl⟩ := canonical_inj hc h heq
      rfl
    · exfalso
      have g := gap h hnear.double heq
      have h1 := hnear.near _ hb
      have h2 : |(m' : ℚ) * 2 ^ e' - m * 2 ^ e| ≤ |(n / d : ℚ) - m * 2 ^ e| + |(n / d : ℚ) - m' * 2 ^ e'| := by
        calc |(m' : ℚ) * 2 ^ e' - m * 2 ^ e| = |((n / d : ℚ) - m * 2 ^ e) - ((n / d : ℚ) - m' * 2 ^ e')| := by ring_nf
          _ ≤ _ := abs_sub _ _
      linarith

/-! ## Rounding is a function -/

theorem below_large {m : ℕ} {e : ℤ} (h : m < 2 ^ 53) (he : e ≤ 971) : (m : ℚ) * 2 ^ e < tooLarge := by
  have h2 : (m : ℚ) * 2 ^ e ≤ (2 ^ 53 - 1) * 2 ^ (971 : ℤ) := by
    have h3 : (m : ℚ) ≤ 2 ^ 53 - 1 := by
      have : m + 1 ≤ 2 ^ 53 := h
      have : ((m + 1 : ℕ) : ℚ) ≤ ((2 ^ 53 : ℕ) : ℚ) := by exact_mod_cast this
      push_cast at this
      linarith
    exact mul_le_mul h3 (two_le he) (two_pos e).le (by norm_num)
  have h3 : tooLarge = (2 ^ 53 - 1 / 2) * (2 : ℚ) ^ (971 : ℤ) := rfl
  have hp := two_pos 971
  rw [h3]
  generalize (2 : ℚ) ^ (971 : ℤ) = P at *
  nlinarith

/-- Of two numbers that are as near, one has an odd mantissa. -/
theorem not_both {v y z : ℚ} (hy : Nearest v y) (hz : Nearest v z) (hlt : y < z) : False := by
  have hd : |v - y| = |v - z| := le_antisymm (hy.near z hz.double) (hz.near y hy.double)
  have hv : v - y = z - v := by
    rcases abs_eq_abs.1 hd with h | h
    · linarith
    · linarith
  obtain ⟨m, e, ev, hm, hn, h1, h2, rfl⟩ := hy.even z hz.double hlt.ne' hd
  obtain ⟨m', e', ev', hm', hn', h1', h2', rfl⟩ := hz.even _ hy.double hlt.ne hd.symm
  have hp := two_pos e
  have hodd : m + 1 < 2 ^ 53 := by
    rcases Nat.lt_or_ge (m + 1) (2 ^ 53) with h | h
    · exact h
    · have : m + 1 = 2 ^ 53 := by omega
      obtain ⟨a, ha⟩ := ev
      omega
  have hb : Binary64 (((m + 1 : ℕ) : ℚ) * 2 ^ e) := ⟨m + 1, e, hodd, h1, h2, rfl⟩
  have hs : ((m + 1 : ℕ) : ℚ) * 2 ^ e = m * 2 ^ e + 2 ^ e := by push_cast; ring
  have hle : (m' : ℚ) * 2 ^ e' ≤ ((m + 1 : ℕ) : ℚ) * 2 ^ e := by
    by_contra hc
    have hc := lt_of_not_ge hc
    have := hy.near _ hb
    rw [abs_of_nonneg (by linarith), hs] at this
    rw [hs] at hc
    rcases abs_cases (v - ((m : ℚ) * 2 ^ e + 2 ^ e)) with ⟨h, _⟩ | ⟨h, _⟩ <;> rw [h] at this <;> linarith
  rcases le_or_gt e e' with h | h
  · obtain ⟨a, ha⟩ := multiple (m' := m') h
    have h3 : (m : ℚ) < a := by rw [ha] at hlt; exact lt_of_mul_lt_mul_right hlt hp.le
    have h4 : (a : ℚ) ≤ (m + 1 : ℕ) := by rw [ha] at hle; exact le_of_mul_le_mul_right hle hp
    have h3 : (m : ℤ) < a := by exact_mod_cast h3
    have h4 : (a : ℤ) ≤ (m + 1 : ℕ) := by exact_mod_cast h4
    have h5 : a = ((m + 1 : ℕ) : ℤ) := by omega
    have := canonical_inj (m := m') (e := e') (m' := m + 1) (e' := e) ⟨hm', hn', h1'⟩ ⟨hodd, by omega, h1⟩ (by rw [ha]; exact congrArg (· * (2 : ℚ) ^ e) (by exact_mod_cast h5))
    obtain ⟨a, rfl⟩ := ev
    obtain ⟨b, hb⟩ := ev'
    omega
  · have := below_normal (m' := m') (e' := e') (e := e) hm' (by omega)
    have h52 : 2 ^ 52 ≤ m := by omega
    have : (2 : ℚ) ^ (52 + e) ≤ m * 2 ^ e := by
      rw [two_add]
      refine mul_le_mul_of_nonneg_right ?_ hp.le
      have : ((2 ^ 52 : ℕ) : ℚ) ≤ m := by exact_mod_cast h52
      push_cast at this
      exact_mod_cast this
    linarith

theorem rounding_unique {v y z : ℚ} (hy : Nearest v y) (hz : Nearest v z) : y = z := by
  rcases lt_trichotomy y z with h | h | h
  · exact (not_both hy hz h).elim
  · exact h
  · exact (not_both hz hy h).elim

/-- `toF64` computes the rounding. -/
theorem toF64_iff {m : ℕ} {e : ℤ} (h : Canonical m e) (he : e ≤ 971) {n d : ℕ} (hd : 0 < d) :
    toF64 n d = .fin m e ↔ Nearest (n / d) (m * 2 ^ e) := by
  refine ⟨fun h => (toF64_fin hd h).2.2, fun hn => ?_⟩
  cases hv : toF64 n d with
  | inf => exact absurd hn.small (not_lt.2 ((toF64_inf hd).1 hv))
  | fin m' e' =>
    obtain ⟨hc, _, hn'⟩ := toF64_fin hd hv
    obtain ⟨rfl, rfl⟩ := canonical_inj hc h (rounding_unique hn' hn)
    rfl

/-- What is rounded to a number is an interval. -/
theorem nearer_left {a b y : ℚ} (h : Nearest a y) (hab : a ≤ b) (hby : b ≤ y) : Nearest b y := by
  refine ⟨lt_of_le_of_lt hby ?_, h.double, ?_, ?_⟩
  · obtain ⟨m, e, hm, _, he, rfl⟩ := h.double
    exact below_large hm he
  · intro z hz
    have := h.near z hz
    rw [abs_of_nonpos (by linarith)] at this ⊢
    rcases abs_cases (a - z) with ⟨h1, h2⟩ | ⟨h1, h2⟩ <;> rcases abs_cases (b - z) with ⟨h3, h4⟩ | ⟨h3, h4⟩ <;> rw [h1] at this <;> rw [h3] <;> linarith
  · intro z hz hne heq
    have := h.near z hz
    have hab' : a = b := by
      rw [abs_of_nonpos (by linarith)] at this heq
      rcases abs_cases (a - z) with ⟨h1, h2⟩ | ⟨h1, h2⟩ <;> rcases abs_cases (b - z) with ⟨h3, h4⟩ | ⟨h3, h4⟩ <;> rw [h1] at this <;> rw [h3] at heq
      · linarith
      · exact absurd (by linarith) hne
      · exact absurd (by linarith) hne
      · exact absurd (by linarith) hne
    subst hab'
    exact h.even z hz hne heq

theorem nearer_right {a b y : ℚ} (h : Nearest a y) (hyb : y ≤ b) (hba : b ≤ a) : Nearest b y := by
  refine ⟨lt_of_le_of_lt hba h.small, h.double, ?_, ?_⟩
  · intro z hz
    have := h.near z hz
    rw [abs_of_nonneg (by linarith)] at this ⊢
    rcases abs_cases (a - z) with ⟨h1, h2⟩ | ⟨h1, h2⟩ <;> rcases abs_cases (b - z) with ⟨h3, h4⟩ | ⟨h3, h4⟩ <;> rw [h1] at this <;> rw [h3] <;> linarith
  · intro z hz hne heq
    have := h.near z hz
    have hab' : a = b := by
      rw [abs_of_nonneg (by linarith)] at this heq
      rcases abs_cases (a - z) with ⟨h1, h2⟩ | ⟨h1, h2⟩ <;> rcases abs_cases (b - z) with ⟨h3, h4⟩ | ⟨h3, h4⟩ <;> rw [h1] at this <;> rw [h3] at heq
      · exact absurd (by linarith) hne
      · exact absurd (by linarith) hne
      · exact absurd (by linarith) hne
      · linarith
    subst hab'
    exact h.even z hz hne heq

/-! ## Decimal digits -/

theorem digitsVal_cons (c : Char) (s : Str) : digitsVal (c :: s) = (c.toNat - 48) * 10 ^ s.length + digitsVal s := by
  have h1 : digitsVal (c :: s) = digitsValAcc (c.toNat - 48) s := by simp [digitsVal, digitsValAcc]
  rw [h1, digitsValAcc_eq]

theorem number_val (s : Str) : number s = digitsVal s := by
  induction s with
  | nil => rfl
  | cons c s ih =>
    rw [digitsVal_cons, number, ih]
    rfl

theorem number_app (i f : Str) : number (i ++ f) = number i * 10 ^ f.length + number f := by
  induction i with
  | nil => simp [number]
  | cons c i ih =>
    rw [List.cons_append, number, number, ih, List.length_append, pow_add]
    ring

theorem written_number (i f : Str) : written i f = number (i ++ f) * (10 : ℚ) ^ (-(f.length : ℤ)) := by
  unfold written
  rw [number_app, zpow_neg, zpow_natCast]
  push_cast
  have : (10 : ℚ) ^ f.length ≠ 0 := by positivity
  field_simp

theorem natStr_ge {n : ℕ} (hn : n ≠ 0) : 10 ^ ((natStr n).length - 1) ≤ n := by
  obtain ⟨h1, h2, h3, h4⟩ := natStr_spec n
  cases hs : natStr n with
  | nil => exact absurd hs h1
  | cons c s =>
    rw [hs] at h2 h3 h4
    have hc : isDigit c = true := by
      rw [List.all_cons, Bool.and_eq_true] at h2; exact h2.1
    have hb := isDigit_bound hc
    have hc0 : c.toNat ≠ 48 := by
      intro h
      have : c = '0' := Char.toNat_inj.1 h
      subst this
      have hl := h4 rfl
      have : s = [] := List.length_eq_zero_iff.1 (by simpa using hl)
      subst this
      exact hn (h3 ▸ rfl)
    rw [← h3, digitsVal_cons]
    have : 1 * 10 ^ s.length ≤ (c.toNat - 48) * 10 ^ s.length := Nat.mul_le_mul_right _ (by omega)
    simp only [List.length_cons, Nat.add_sub_cancel]
    omega

theorem ten_pos (e : ℤ) : (0 : ℚ) < 10 ^ e := by positivity
theorem ten_add (a b : ℤ) : (10 : ℚ) ^ (a + b) = 10 ^ a * 10 ^ b := zpow_add₀ (by norm_num) a b

theorem natStr_bounds {n : ℕ} (hn : n ≠ 0) : (10 : ℚ) ^ (((natStr n).length : ℤ) - 1) ≤ n ∧ (n : ℚ) < 10 ^ ((natStr n).length : ℤ) := by
  have hl : 0 < (natStr n).length := List.length_pos_iff.2 (natStr_ne_nil n)
  constructor
  · rw [show ((natStr n).length : ℤ) - 1 = (((natStr n).length - 1 : ℕ) : ℤ) by omega, zpow_natCast]
    exact_mod_cast natStr_ge hn
  · rw [zpow_natCast]
    exact_mod_cast natStr_lt n

/-- The power of ten above a number. -/
theorem decPoint_spec {n d : ℕ} (hn : n ≠ 0) (hd : 0 < d) :
    (10 : ℚ) ^ (decPoint n d ((natStr n).length - (natStr d).length) - 1) ≤ n / d ∧
      (n / d : ℚ) < 10 ^ decPoint n d ((natStr n).length - (natStr d).length) := by
  have hd' : (0 : ℚ) < d := by exact_mod_cast hd
  obtain ⟨n1, n2⟩ := natStr_bounds hn
  obtain ⟨d1, d2⟩ := natStr_bounds (n := d) (by omega)
  generalize ((natStr n).length : ℤ) = a at *
  generalize ((natStr d).length : ℤ) = b at *
  have l : (10 : ℚ) ^ (a - b - 1) ≤ n / d := by
    rw [le_div_iff₀ hd']
    calc (10 : ℚ) ^ (a - b - 1) * d ≤ 10 ^ (a - b - 1) * 10 ^ b := mul_le_mul_of_nonneg_left d2.le (ten_pos _).le
      _ = 10 ^ (a - 1) := by rw [← ten_add]; congr 1; ring
      _ ≤ n := n1
  have u : (n / d : ℚ) < 10 ^ (a - b + 1) := by
    rw [div_lt_iff₀ hd']
    calc (n : ℚ) < 10 ^ a := n2
      _ = 10 ^ (a - b + 1) * 10 ^ (b - 1) := by rw [← ten_add]; congr 1; ring
      _ ≤ 10 ^ (a - b + 1) * d := mul_le_mul_of_nonneg_left d1 (ten_pos _).le
  unfold decPoint
  split
  · rename_i h
    rw [le_scaled n d 10 hd (by norm_num)] at h
    exact ⟨by rw [add_sub_cancel_right]; exact_mod_cast h, u⟩
  · rename_i h
    rw [le_scaled n d 10 hd (by norm_num)] at h
    exact ⟨l, by exact_mod_cast lt_of_not_ge h⟩

theorem decF64_value (c : ℕ) (x : ℤ) : ((c * 10 ^ x.toNat : ℕ) : ℚ) / (10 ^ (-x).toNat : ℕ) = c * 10 ^ x := by
  rw [zpow_split (by norm_num)]
  push_cast
  ring

/-- Seventeen digits are enough. -/
theorem pick_seventeen {m : ℕ} {e : ℤ} (h : Canonical m e) (he : e ≤ 971) {n d : ℕ} (hd : 0 < d) (hv : (n / d : ℚ) = m * 2 ^ e)
    {k : ℤ} (hk : (10 : ℚ) ^ (k - 1) ≤ n / d) :
    pickDigits (.fin m e) (n * 10 ^ ((17 : ℕ) - k).toNat) (d * 10 ^ (k - (17 : ℕ)).toNat) (k - (17 : ℕ)) ≠ none := by
  generalize hx : k - ((17 : ℕ) : ℤ) = x
  rw [show ((17 : ℕ) : ℤ) - k = -x by omega]
  unfold pickDigits
  have hb : 0 < d * 10 ^ x.toNat := by positivity
  have hb' : (0 : ℚ) < (d * 10 ^ x.toNat : ℕ) := by exact_mod_cast hb
  have hs := scaled n d 10 hd (by norm_num) x
  rw [show ((10 : ℕ) : ℚ) = 10 by norm_num] at hs
  have hq := div_eq (n * 10 ^ (-x).toNat) (d * 10 ^ x.toNat) hb
  rw [hs] at hq
  have hm : (((n * 10 ^ (-x).toNat) % (d * 10 ^ x.toNat) : ℕ) : ℚ) < (d * 10 ^ x.toNat : ℕ) := by exact_mod_cast Nat.mod_lt _ hb
  generalize (n * 10 ^ (-x).toNat) / (d * 10 ^ x.toNat) = q at *
  generalize (n * 10 ^ (-x).toNat) % (d * 10 ^ x.toNat) = r at *
  have hr1 : (r : ℚ) / (d * 10 ^ x.toNat : ℕ) < 1 := by rw [div_lt_one hb']; exact hm
  have hr0 : 0 ≤ (r : ℚ) / (d * 10 ^ x.toNat : ℕ) := by positivity
  generalize (r : ℚ) / (d * 10 ^ x.toNat : ℕ) = ρ at *
  have hp := ten_pos x
  have hval : (n / d : ℚ) = (q + ρ) * 10 ^ x := by rw [← hq]; field_simp
  have hunit : (10 : ℚ) ^ 16 * 10 ^ x ≤ n / d := by
    refine le_trans (le_of_eq ?_) hk
    rw [← zpow_natCast, ← ten_add]
    congr 1
    push_cast
    omega
  -- a decimal within half a unit is read back
  have near : ∀ c : ℕ, |(c : ℚ) - (q + ρ)| ≤ 1 / 2 → decF64 c x = .fin m e := by
    intro c hc
    refine read_back h he (by positivity) ?_
    rw [decF64_value, ← hv]
    have e1 : |(c : ℚ) * 10 ^ x - n / d| = |(c : ℚ) - (q + ρ)| * 10 ^ x := by
      rw [hval, ← sub_mul, abs_mul, abs_of_pos hp]
    rw [e1]
    have h3 : |(c : ℚ) - (q + ρ)| * 10 ^ x ≤ 1 / 2 * 10 ^ x := mul_le_mul_of_nonneg_right hc hp.le
    generalize (10 : ℚ) ^ x = P at *
    have h4 : (2 : ℚ) ^ 54 * (1 / 2) < 10 ^ 16 := by norm_num
    nlinarith
  rcases le_total ρ (1 / 2) with hh | hh
  · have := near q (by rw [show (q : ℚ) - (q + ρ) = -ρ by ring, abs_neg, abs_of_nonneg hr0]; exact hh)
    split
    · exact nofun
    · split
      · exact nofun
      · rename_i h1 h2
        exact absurd ⟨this, .inl h2⟩ h1
  · have := near (q + 1) (by push_cast; rw [show (q : ℚ) + 1 - (q + ρ) = 1 - ρ by ring, abs_of_nonneg (by linarith)]; linarith)
    split
    · exact nofun
    · exact nofun

theorem pick_reads {v : F64} {a b : ℕ} {x : ℤ} {c : ℕ} (h : pickDigits v a b x = some c) : decF64 c x = v := by
  unfold pickDigits at h
  split at h
  · rename_i h1
    cases h; exact h1.1
  · split at h
    · cases h; assumption
    · exact nomatch h

theorem decF64_iff {m : ℕ} {e : ℤ} (h : Canonical m e) (he : e ≤ 971) (c : ℕ) (x : ℤ) :
    decF64 c x = .fin m e ↔ Nearest (c * 10 ^ x) (m * 2 ^ e) := by
  unfold decF64
  rw [toF64_iff h he (by positivity), decF64_value]

theorem Spec.HasDigits.mono {n n' : ℕ} {w : ℚ} (h : HasDigits n w) (hn : n ≤ n') : HasDigits n' w := by
  obtain ⟨c, x, hc, rfl⟩ := h
  exact ⟨c, x, lt_of_lt_of_le hc (Nat.pow_le_pow_right (by norm_num) hn), rfl⟩

/-- No decimal of `p` digits is between the two around a number. -/
theorem around {p q : ℕ} {x : ℤ} {y w : ℚ} (hp : 1 ≤ p) (hk : (10 : ℚ) ^ (x + p - 1) ≤ y) (hq : (q : ℚ) * 10 ^ x ≤ y)
    (hq' : y < (q + 1 : ℕ) * 10 ^ x) (hw : HasDigits p w) : w ≤ q * 10 ^ x ∨ (q + 1 : ℕ) * 10 ^ x ≤ w := by
  obtain ⟨c, x', hc, rfl⟩ := hw
  have hx := ten_pos x
  rcases le_or_gt x x' with h | h
  · obtain ⟨j, hj⟩ := Int.eq_ofNat_of_zero_le (sub_nonneg.2 h)
    have e : (c : ℚ) * 10 ^ x' = (c * 10 ^ j : ℕ) * 10 ^ x := by
      rw [show x' = (j : ℤ) + x by omega, ten_add, zpow_natCast]
      push_cast; ring
    rw [e]
    rcases Nat.lt_or_ge q (c * 10 ^ j) with h' | h'
    · right
      exact mul_le_mul_of_nonneg_right (by exact_mod_cast h') hx.le
    · left
      exact mul_le_mul_of_nonneg_right (by exact_mod_cast h') hx.le
  · left
    have h1 : (c : ℚ) * 10 ^ x' ≤ 10 ^ (x + p - 1) := by
      calc (c : ℚ) * 10 ^ x' ≤ 10 ^ (p : ℤ) * 10 ^ x' := by
            refine mul_le_mul_of_nonneg_right ?_ (ten_pos x').le
            rw [zpow_natCast]
            exact_mod_cast hc.le
        _ = 10 ^ (p + x') := by rw [ten_add]
        _ ≤ 10 ^ (x + p - 1) := zpow_le_zpow_right₀ (by norm_num) (by omega)
    refine le_trans h1 ?_
    have e : (10 : ℚ) ^ (x + p - 1) = (10 ^ (p - 1) : ℕ) * 10 ^ x := by
      rw [show x + (p : ℤ) - 1 = ((p - 1 : ℕ) : ℤ) + x by omega, ten_add, zpow_natCast]
      push_cast; rfl
    rw [e] at hk ⊢
    refine mul_le_mul_of_nonneg_right ?_ hx.le
    have := lt_of_mul_lt_mul_right (lt_of_le_of_lt hk hq') hx.le
    have : 10 ^ (p - 1) < q + 1 := by exact_mod_cast this
    have : 10 ^ (p - 1) ≤ q := by omega
    exact_mod_cast this

/-- What `pickDigits` picks. -/
theorem pick_spec {m : ℕ} {e : ℤ} (h : Canonical m e) (he : e ≤ 971) {n d : ℕ} (hd : 0 < d) (hv : (n / d : ℚ) = m * 2 ^ e)
    {k : ℤ} (hk : (10 : ℚ) ^ (k - 1) ≤ n / d) (hk' : (n / d : ℚ) < 10 ^ k) {p : ℕ} (hp : 1 ≤ p) :
    match pickDigits (.fin m e) (n * 10 ^ (p - k).toNat) (d * 10 ^ (k - p).toNat) (k - p) with
    | none => ∀ w, HasDigits p w → ¬ Nearest w (m * 2 ^ e)
    | some c => c ≤ 10 ^ p ∧ HasDigits p (c * 10 ^ (k - p)) ∧
        ∀ w, HasDigits p w → Nearest w (m * 2 ^ e) → |(c : ℚ) * 10 ^ (k - p) - m * 2 ^ e| ≤ |w - m * 2 ^ e| := by
  generalize hx : k - (p : ℤ) = x
  rw [show (p : ℤ) - k = -x by omega]
  unfold pickDigits
  have hb : 0 < d * 10 ^ x.toNat := by positivity
  have hb' : (0 : ℚ) < (d * 10 ^ x.toNat : ℕ) := by exact_mod_cast hb
  have hs := scaled n d 10 hd (by norm_num) x
  rw [show ((10 : ℕ) : ℚ) = 10 by norm_num] at hs
  have hq := div_eq (n * 10 ^ (-x).toNat) (d * 10 ^ x.toNat) hb
  rw [hs] at hq
  have hm : (n * 10 ^ (-x).toNat) % (d * 10 ^ x.toNat) < d * 10 ^ x.toNat := Nat.mod_lt _ hb
  generalize (n * 10 ^ (-x).toNat) / (d * 10 ^ x.toNat) = q at *
  generalize (n * 10 ^ (-x).toNat) % (d * 10 ^ x.toNat) = r at *
  generalize d * 10 ^ x.toNat = b at *
  have hP := ten_pos x
  have hr0 : 0 ≤ (r : ℚ) / b := by positivity
  have hr1 : (r : ℚ) / b < 1 := by rw [div_lt_one hb']; exact_mod_cast hm
  have hval : (m : ℚ) * 2 ^ e = (q + r / b) * 10 ^ x := by rw [← hq, ← hv]; field_simp
  have lo : (q : ℚ) * 10 ^ x ≤ m * 2 ^ e := by rw [hval]; exact mul_le_mul_of_nonneg_right (by linarith) hP.le
  have hi : (m : ℚ) * 2 ^ e < (q + 1 : ℕ) * 10 ^ x := by
    rw [hval]; push_cast; exact mul_lt_mul_of_pos_right (by linarith) hP
  have hk1 : (10 : ℚ) ^ (x + p - 1) ≤ m * 2 ^ e := by rw [← hv, show x + (p : ℤ) - 1 = k - 1 by omega]; exact hk
  have dlo : |(q : ℚ) * 10 ^ x - m * 2 ^ e| = r / b * 10 ^ x := by
    rw [abs_of_nonpos (by linarith), hval]; ring
  have dhi : |((q + 1 : ℕ) : ℚ) * 10 ^ x - m * 2 ^ e| = (1 - r / b) * 10 ^ x := by
    rw [abs_of_nonneg (by linarith), hval]; push_cast; ring
  have hlow : ∀ w, Nearest w (m * 2 ^ e) → w ≤ q * 10 ^ x → decF64 q x = .fin m e ∧ r / b * 10 ^ x ≤ |w - m * 2 ^ e| := by
    intro w hw hle
    refine ⟨(decF64_iff h he q x).2 (nearer_left hw hle lo), ?_⟩
    rw [← dlo, abs_of_nonpos (by linarith), abs_of_nonpos (by linarith)]
    linarith
  have hhigh : ∀ w, Nearest w (m * 2 ^ e) → (q + 1 : ℕ) * 10 ^ x ≤ w → decF64 (q + 1) x = .fin m e ∧ (1 - r / b) * 10 ^ x ≤ |w - m * 2 ^ e| := by
    intro w hw hle
    refine ⟨(decF64_iff h he (q + 1) x).2 (nearer_right hw hi.le hle), ?_⟩
    rw [← dhi, abs_of_nonneg (by linarith), abs_of_nonneg (by linarith)]
    linarith
  have hq10 : q < 10 ^ p := by
    have h1 : (q : ℚ) * 10 ^ x < 10 ^ (p : ℤ) * 10 ^ x := by
      rw [← ten_add, show (p : ℤ) + x = k by omega]
      exact lt_of_le_of_lt lo (hv ▸ hk')
    have h1 := lt_of_mul_lt_mul_right h1 hP.le
    rw [zpow_natCast] at h1
    exact_mod_cast h1
  have dig1 : HasDigits p ((q : ℚ) * 10 ^ x) := ⟨q, x, hq10, rfl⟩
  have dig2 : HasDigits p (((q + 1 : ℕ) : ℚ) * 10 ^ x) := by
    rcases Nat.lt_or_ge (q + 1) (10 ^ p) with h' | h'
    · exact ⟨q + 1, x, h', rfl⟩
    · have e1 : q + 1 = 10 ^ p := by omega
      refine ⟨1, x + p, Nat.one_lt_pow (by omega) (by norm_num), ?_⟩
      rw [e1, ten_add, zpow_natCast]
      push_cast; ring
  have half1 : 2 * r ≤ b → r / b * (10 : ℚ) ^ x ≤ (1 - r / b) * 10 ^ x := by
    intro h'
    have h' : 2 * (r : ℚ) ≤ b := by exact_mod_cast h'
    have : (r : ℚ) / b ≤ 1 / 2 := by rw [div_le_iff₀ hb']; linarith
    exact mul_le_mul_of_nonneg_right (by linarith) hP.le
  have half2 : b ≤ 2 * r → (1 - r / b) * (10 : ℚ) ^ x ≤ r / b * 10 ^ x := by
    intro h'
    have h' : (b : ℚ) ≤ 2 * r := by exact_mod_cast h'
    have : 1 / 2 ≤ (r : ℚ) / b := by rw [le_div_iff₀ hb']; linarith
    exact mul_le_mul_of_nonneg_right (by linarith) hP.le
  by_cases h1 : decF64 q x = .fin m e ∧ (decF64 (q + 1) x ≠ .fin m e ∨ 2 * r < b ∨ (2 * r = b ∧ q % 2 = 0))
  · rw [if_pos h1]
    refine ⟨hq10.le, dig1, fun w hw hn => ?_⟩
    rw [dlo]
    rcases around hp hk1 lo hi hw with h' | h'
    · exact (hlow w hn h').2
    · obtain ⟨g1, g2⟩ := hhigh w hn h'
      refine le_trans (half1 ?_) g2
      rcases h1.2 with h3 | h3 | h3
      · exact absurd g1 h3
      · omega
      · omega
  · rw [if_neg h1]
    by_cases h2 : decF64 (q + 1) x = .fin m e
    · rw [if_pos h2]
      refine ⟨hq10, dig2, fun w hw hn => ?_⟩
      rw [dhi]
      rcases around hp hk1 lo hi hw with h' | h'
      · obtain ⟨g1, g2⟩ := hlow w hn h'
        refine le_trans (half2 ?_) g2
        by_contra hc
        exact h1 ⟨g1, .inr (.inl (by omega))⟩
      · exact (hhigh w hn h').2
    · rw [if_neg h2]
      intro w hw hn
      rcases around hp hk1 lo hi hw with h' | h'
      · exact h1 ⟨(hlow w hn h').1, .inl h2⟩
      · exact h2 (hhigh w hn h').1

theorem shortest_spec {m : ℕ} {e : ℤ} (h : Canonical m e) (he : e ≤ 971) {n d : ℕ} (hd : 0 < d) (hv : (n / d : ℚ) = m * 2 ^ e)
    {k : ℤ} (hk : (10 : ℚ) ^ (k - 1) ≤ n / d) (hk' : (n / d : ℚ) < 10 ^ k) : ∀ fuel p : ℕ, p + fuel = 18 → p ≤ 17 → 1 ≤ p →
      (∀ j u, j < p → HasDigits j u → ¬ Nearest u (m * 2 ^ e)) →
      (shortest (.fin m e) n d k fuel p).1 ≤ 10 ^ 17 ∧ Shortest ((shortest (.fin m e) n d k fuel p).1 * 10 ^ (shortest (.fin m e) n d k fuel p).2) (m * 2 ^ e)
  | 0, p, h1, h2, h3, hj => by omega
  | fuel + 1, p, h1, h2, h3, hj => by
    rw [shortest]
    have hs := pick_spec h he hd hv hk hk' h3
    cases hp : pickDigits (.fin m e) (n * 10 ^ (p - k).toNat) (d * 10 ^ (k - p).toNat) (k - p) with
    | some c =>
      rw [hp] at hs
      obtain ⟨hc10, hs1, hs2⟩ := hs
      have hn := (decF64_iff h he c (k - p)).1 (pick_reads hp)
      refine ⟨le_trans hc10 (Nat.pow_le_pow_right (by norm_num) h2), hn, fun j w hw hnw => ?_, fun j w hw hnw hmin => ?_⟩
      · rcases Nat.lt_or_ge j p with h' | h'
        · exact absurd hnw (hj j w h' hw)
        · exact Spec.HasDigits.mono hs1 h'
      · rcases Nat.lt_or_ge p j with h' | h'
        · exact absurd hn (hmin p _ h' hs1)
        · exact hs2 w (Spec.HasDigits.mono hw h') hnw
    | none =>
      rw [hp] at hs
      have hne : p ≠ 17 := by
        rintro rfl
        exact pick_seventeen h he hd hv hk hp
      refine shortest_spec h he hd hv hk hk' fuel (p + 1) (by omega) (by omega) (by omega) (fun j u hju hu => ?_)
      rcases Nat.lt_or_ge j p with h' | h'
      · exact hj j u h' hu
      · exact hs u (Spec.HasDigits.mono hu (by omega))

theorem digitsOf_spec {m : ℕ} {e : ℤ} (h : Canonical m e) (he : e ≤ 971) (hm : m ≠ 0) :
    (digitsOf (.fin m e) (numerator m e) (denominator e)).1 ≤ 10 ^ 17 ∧
    Shortest ((digitsOf (.fin m e) (numerator m e) (denominator e)).1 * 10 ^ (digitsOf (.fin m e) (numerator m e) (denominator e)).2)
      (m * 2 ^ e) := by
  have hd : 0 < denominator e := by unfold denominator; positivity
  have hv : ((numerator m e : ℕ) : ℚ) / (denominator e : ℕ) = m * 2 ^ e := by
    unfold numerator denominator
    rw [zpow_split (by norm_num)]
    push_cast
    ring
  have hn : numerator m e ≠ 0 := by unfold numerator; positivity
  have hp := decPoint_spec hn hd
  refine shortest_spec h he hd hv hp.1 hp.2 17 1 rfl (by omega) (le_refl _) ?_
  rintro j u hj ⟨c, x, hc, rfl⟩ hnr
  have hj : j = 0 := by omega
  subst hj
  have hc : c = 0 := by simpa using hc
  subst hc
  have := hnr.near 0 ⟨0, 0, by norm_num, by norm_num, by norm_num, by norm_num⟩
  rw [Nat.cast_zero, zero_mul, sub_zero, abs_zero, zero_sub, abs_neg] at this
  rcases mul_eq_zero.1 (abs_nonpos_iff.1 this) with h1 | h1
  · exact hm (by exact_mod_cast h1)
  · exact absurd h1 (two_pos e).ne'

/-! ## The text -/

theorem stripZeros_split (s : Str) : ∃ z : ℕ, s = stripZeros s ++ List.replicate z '0' := by
  refine ⟨(s.reverse.takeWhile (· == '0')).length, ?_⟩
  unfold stripZeros
  have h : s.reverse.takeWhile (· == '0') = List.replicate (s.reverse.takeWhile (· == '0')).length '0' := by
    refine List.eq_replicate_iff.2 ⟨rfl, fun c hc => ?_⟩
    have := List.all_eq_true.1 List.all_takeWhile c hc
    simpa using this
  have h2 := congrArg List.reverse (List.takeWhile_append_dropWhile (p := (· == '0')) (l := s.reverse))
  rw [List.reverse_append, List.reverse_reverse] at h2
  rw [h, List.reverse_replicate] at h2
  exact h2.symm

theorem number_zeros (z : ℕ) : number (List.replicate z '0') = 0 := by
  induction z with
  | zero => rfl
  | succ z ih => rw [List.replicate_succ, number, ih]; simp

theorem zeros_digits (z : ℕ) : ∀ c ∈ List.replicate z '0', isDigit c = true := by
  intro c hc
  rw [(List.mem_replicate.1 hc).2]
  decide

theorem stripZeros_last (s : Str) : (stripZeros s).getLast? ≠ some '0' := by
  unfold stripZeros
  rw [List.getLast?_reverse]
  intro h
  have h2 := List.head?_dropWhile_not (· == '0') s.reverse
  rw [h] at h2
  simp at h2

/-- The digits without zeros at the end. -/
theorem stripped {c : ℕ} (hc : c ≠ 0) : Digits (stripZeros (natStr c)) ∧ (stripZeros (natStr c)).head? ≠ some '0' ∧
    ∃ z : ℕ, (natStr c).length = (stripZeros (natStr c)).length + z ∧ c = number (stripZeros (natStr c)) * 10 ^ z := by
  obtain ⟨z, hz⟩ := stripZeros_split (natStr c)
  have hn : number (natStr c) = c := by rw [number_val, natStr_val]
  have e : c = number (stripZeros (natStr c)) * 10 ^ z := by
    have := congrArg number hz
    rw [hn, number_app, number_zeros, List.length_replicate, Nat.add_zero] at this
    exact this
  have hne : stripZeros (natStr c) ≠ [] := by
    intro h0
    rw [h0] at e
    simp [number] at e
    exact hc e
  refine ⟨⟨hne, ?_⟩, ?_, z, ?_, e⟩
  · intro a ha
    refine natStr_digits c a ?_
    rw [hz]
    exact List.mem_append_left _ ha
  · intro h0
    have h1 : (natStr c).head? = some '0' := by
      rw [hz, List.head?_append, h0]; rfl
    have h2 := (natStr_spec c).2.2.2 h1
    cases hs : natStr c with
    | nil => exact natStr_ne_nil c hs
    | cons a l =>
      rw [hs] at h1 h2
      have hl : l = [] := List.length_eq_zero_iff.1 (by simpa using h2)
      have ha : a = '0' := by simpa using h1
      rw [hs, ha, hl] at hn
      exact hc (hn ▸ rfl)
  · have := congrArg List.length hz
    rw [List.length_append, List.length_replicate] at this
    exact this

theorem natStr_head {n : ℕ} (hn : n ≠ 0) : (natStr n).head? ≠ some '0' := by
  intro h1
  have h2 := (natStr_spec n).2.2.2 h1
  have h3 := (natStr_spec n).2.2.1
  cases hs : natStr n with
  | nil => exact natStr_ne_nil n hs
  | cons a l =>
    rw [hs] at h1 h2 h3
    have hl : l = [] := List.length_eq_zero_iff.1 (by simpa using h2)
    have ha : a = '0' := by simpa using h1
    rw [ha, hl] at h3
    exact hn (h3 ▸ rfl)

theorem pad2_digits (n : ℕ) : Power (pad2 n) ∧ number (pad2 n) = n := by
  unfold pad2
  have hl := List.length_pos_iff.2 (natStr_ne_nil n)
  split
  · rename_i h
    refine ⟨⟨⟨nofun, fun c hc => ?_⟩, .inl ?_⟩, ?_⟩
    · rcases List.mem_cons.1 hc with rfl | h
      · decide
      · exact natStr_digits n c h
    · by_cases h0 : n = 0
      · subst h0; rfl
      · have := natStr_ge h0
        have h2 : (natStr n).length ≤ 1 := by
          by_contra hc
          have : 10 ^ 1 ≤ 10 ^ ((natStr n).length - 1) := Nat.pow_le_pow_right (by norm_num) (by omega)
          omega
        rw [List.length_cons]
        omega
    · rw [number, number_val, natStr_val]; simp
  · rename_i h
    refine ⟨⟨⟨natStr_ne_nil n, natStr_digits n⟩, ?_⟩, by rw [number_val, natStr_val]⟩
    have := natStr_lt n
    have h2 : 2 ≤ (natStr n).length := by
      by_contra hc
      have : 10 ^ (natStr n).length ≤ 10 ^ 1 := Nat.pow_le_pow_right (by norm_num) (by omega)
      omega
    rcases Nat.lt_or_ge 2 (natStr n).length with h' | h'
    · exact .inr ⟨h', natStr_head (by omega)⟩
    · exact .inl (by omega)

theorem number_bounds {c : Char} {f : Str} (hd : Digits (c :: f)) (h0 : c ≠ '0') :
    10 ^ f.length ≤ number (c :: f) ∧ number (c :: f) < 10 ^ (f.length + 1) := by
  have hc := isDigit_bound (hd.2 c (by simp))
  have hc0 : c.toNat ≠ 48 := fun h => h0 (Char.toNat_inj.1 h)
  constructor
  · rw [number_val, digitsVal_cons]
    have : 1 * 10 ^ f.length ≤ (c.toNat - 48) * 10 ^ f.length := Nat.mul_le_mul_right _ (by omega)
    omega
  · rw [number_val]
    have := digitsVal_lt (c :: f) hd.2
    exact this

/-- The text and the number of digits with a point. -/
theorem formatDigits_text {ds : Str} (hd : Digits ds) (hh : ds.head? ≠ some '0') (ht : ds.getLast? ≠ some '0') (h18 : ds.length ≤ 18) (k : ℤ) :
    FloatText (formatDigits ds k) (number ds * 10 ^ (k - ds.length)) := by
  have hval : (10 : ℚ) ^ (k - 1) ≤ number ds * 10 ^ (k - ds.length) ∧ (number ds : ℚ) * 10 ^ (k - ds.length) < 10 ^ k := by
    cases ds with
    | nil => exact absurd rfl hd.1
    | cons c f =>
      obtain ⟨b1, b2⟩ := number_bounds hd (fun e => hh (by rw [e]; rfl))
      constructor
      · rw [show k - 1 = (f.length : ℤ) + (k - (c :: f).length) by simp only [List.length_cons]; push_cast; ring, ten_add, zpow_natCast]
        refine mul_le_mul_of_nonneg_right ?_ (ten_pos _).le
        exact_mod_cast b1
      · have e : k = ((f.length + 1 : ℕ) : ℤ) + (k - (c :: f).length) := by simp only [List.length_cons]; push_cast; ring
        conv => rhs; rw [e]
        rw [ten_add, zpow_natCast]
        refine mul_lt_mul_of_pos_right ?_ (ten_pos _)
        exact_mod_cast b2
  unfold formatDigits
  split
  · rename_i hk
    right; right
    refine ⟨?_, ?_⟩
    · cases ds with
      | nil => exact absurd rfl hd.1
      | cons c f =>
        obtain ⟨hx, hn⟩ := pad2_digits (k - 1).natAbs
        have hc0 : c ≠ '0' := fun e => hh (by rw [e]; rfl)
        have hsign : ((if k - 1 < 0 then '-' else '+') : Char) = '+' ∨ ((if k - 1 < 0 then '-' else '+') : Char) = '-' := by
          split
          · exact .inr rfl
          · exact .inl rfl
        have he : (if ((if k - 1 < 0 then '-' else '+') : Char) = '-' then -(number (pad2 (k - 1).natAbs) : ℤ)
            else number (pad2 (k - 1).natAbs)) = k - 1 := by
          rw [hn]
          by_cases h : k - 1 < 0
          · rw [if_pos h, if_pos rfl]; omega
          · rw [if_neg h, if_neg (by decide)]; omega
        cases f with
        | nil =>
          have := PowerText.whole c _ _ (hd.2 c (List.mem_singleton.2 rfl)) hc0 hsign hx
          rw [he] at this
          exact this
        | cons c2 f =>
          have hlast : (c2 :: f).getLast? ≠ some '0' := by
            rw [List.getLast?_cons_cons] at ht; exact ht
          have := PowerText.point c _ (c2 :: f) _ (hd.2 c (by simp)) hc0 hsign
            ⟨nofun, fun a ha => hd.2 a (by simp at ha ⊢; right; exact ha)⟩ hlast hx
          rw [he, written_number, mul_assoc, ← ten_add] at this
          rw [show -(((c2 :: f).length : ℕ) : ℤ) + (k - 1) = k - ((c :: c2 :: f).length : ℕ) by
            simp only [List.length_cons]; push_cast; ring] at this
          have hl : ¬ (c :: c2 :: f).length ≤ 1 := by simp
          rw [if_neg hl]
          exact this
    · rcases hk with hk | hk
      · left
        refine lt_of_lt_of_le hval.2 ?_
        calc (10 : ℚ) ^ k ≤ 10 ^ (-4 : ℤ) := zpow_le_zpow_right₀ (by norm_num) hk
          _ = 1 / 10 ^ 4 := by norm_num
      · right
        refine le_trans ?_ hval.1
        calc (10 : ℚ) ^ 16 = 10 ^ (16 : ℤ) := by norm_num
          _ ≤ 10 ^ (k - 1) := zpow_le_zpow_right₀ (by norm_num) (by omega)
  · rename_i hk
    right; left
    refine ⟨?_, ?_, ?_⟩
    · split
      · rename_i h
        have := PointText.mk (c% "0") (List.replicate (-k).toNat '0' ++ ds) ⟨⟨by decide, by decide⟩, .inl rfl⟩
          ⟨⟨by simp [hd.1], fun a ha => by
            rcases List.mem_append.1 ha with h' | h'
            · exact zeros_digits _ a h'
            · exact hd.2 a h'⟩, .inr (by rw [List.getLast?_append_of_ne_nil _ hd.1]; exact ht)⟩
          (by rw [List.length_append, List.length_replicate, show (c% "0").length = 1 from rfl]; omega)
        rw [written_number, number_app, number_app, number_zeros, show number (c% "0") = 0 from rfl, List.length_append,
          List.length_replicate] at this
        rw [show -((((-k).toNat + ds.length : ℕ)) : ℤ) = k - ds.length by push_cast; omega] at this
        simp only [Nat.zero_mul, Nat.zero_add] at this
        exact this
      · split
        · rename_i h1 h2
          have hd2 : ds.drop k.toNat ≠ [] := by
            intro h0
            have := congrArg List.length h0
            rw [List.length_drop, List.length_nil] at this
            omega
          have := PointText.mk (ds.take k.toNat) (ds.drop k.toNat)
            ⟨⟨by
              intro h0
              have := congrArg List.length h0
              rw [List.length_take, List.length_nil] at this
              omega, fun a ha => hd.2 a (List.mem_of_mem_take ha)⟩, .inr (by
                rw [List.head?_take, if_neg (by omega)]; exact hh)⟩
            ⟨⟨hd2, fun a ha => hd.2 a (List.mem_of_mem_drop ha)⟩, .inr (by
              rw [← List.take_append_drop k.toNat ds, List.getLast?_append_of_ne_nil _ hd2] at ht; exact ht)⟩
            (by rw [List.length_take, List.length_drop]; omega)
          rw [written_number, List.take_append_drop, List.length_drop,
            show -(((ds.length - k.toNat : ℕ)) : ℤ) = k - ds.length by omega] at this
          exact this
        · rename_i h1 h2
          have := PointText.mk (ds ++ List.replicate (k.toNat - ds.length) '0') (c% "0")
            ⟨⟨by simp [hd.1], fun a ha => by
              rcases List.mem_append.1 ha with h' | h'
              · exact hd.2 a h'
              · exact zeros_digits _ a h'⟩, .inr (by
                rw [List.head?_append_of_ne_nil _ hd.1]; exact hh)⟩ ⟨⟨by decide, by decide⟩, .inl rfl⟩
            (by rw [List.length_append, List.length_replicate, show (c% "0").length = 1 from rfl]; omega)
          rw [written_number, number_app, number_app, number_zeros, show number (c% "0") = 0 from rfl, List.length_replicate] at this
          have e : (((number ds * 10 ^ (k.toNat - ds.length) + 0) * 10 ^ (c% "0").length + 0 : ℕ) : ℚ) * 10 ^ (-((c% "0").length : ℤ))
              = number ds * 10 ^ (k - ds.length) := by
            rw [show k - (ds.length : ℤ) = ((k.toNat - ds.length : ℕ) : ℤ) by omega, zpow_natCast]
            simp
          rw [e] at this
          exact this
    · refine le_trans ?_ hval.1
      calc (1 : ℚ) / 10 ^ 4 = 10 ^ (-4 : ℤ) := by norm_num
        _ ≤ 10 ^ (k - 1) := zpow_le_zpow_right₀ (by norm_num) (by omega)
    · refine lt_of_lt_of_le hval.2 ?_
      calc (10 : ℚ) ^ k ≤ 10 ^ (16 : ℤ) := zpow_le_zpow_right₀ (by norm_num) (by omega)
        _ = 10 ^ 16 := by norm_num

theorem formatParts_text {c : ℕ} (hc : c ≠ 0) (h17 : c ≤ 10 ^ 17) (x : ℤ) : FloatText (formatParts c x) (c * 10 ^ x) := by
  obtain ⟨hd, hh, z, hl, hv⟩ := stripped hc
  have h18 : (stripZeros (natStr c)).length ≤ 18 := by
    by_contra hgt
    have := natStr_ge hc
    have : 10 ^ 18 ≤ 10 ^ ((natStr c).length - 1) := Nat.pow_le_pow_right (by norm_num) (by omega)
    omega
  have h := formatDigits_text hd hh (stripZeros_last _) h18 ((natStr c).length + x)
  have e : (number (stripZeros (natStr c)) : ℚ) * 10 ^ (((natStr c).length : ℤ) + x - (stripZeros (natStr c)).length) = c * 10 ^ x := by
    rw [show ((natStr c).length : ℤ) + x - (stripZeros (natStr c)).length = z + x by omega, ten_add, zpow_natCast, ← mul_assoc]
    congr 1
    conv => rhs; rw [hv]
    push_cast
    rfl
  rw [e] at h
  exact h

end Treeno
