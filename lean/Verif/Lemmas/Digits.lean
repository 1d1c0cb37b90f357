import Verif.Inference
/-!
# Decimal digit strings
-/
namespace Treeno

theorem digitC_toNat {d : Nat} (h : d < 10) : (digitC d).toNat = 48 + d := by
  have : d = 0 ∨ d = 1 ∨ d = 2 ∨ d = 3 ∨ d = 4 ∨ d = 5 ∨ d = 6 ∨ d = 7 ∨ d = 8 ∨ d = 9 := by omega
  rcases this with rfl | rfl | rfl | rfl | rfl | rfl | rfl | rfl | rfl | rfl <;> rfl

theorem digitC_isDigit {d : Nat} (h : d < 10) : isDigit (digitC d) = true := by
  simp [isDigit, digitC_toNat h]; omega

/-- Value of a digit string with an initial accumulator. -/
def digitsValAcc (a : Nat) (s : Str) : Nat := s.foldl (fun a c => a * 10 + (c.toNat - 48)) a

theorem digitsValAcc_append (a : Nat) (s t : Str) :
    digitsValAcc a (s ++ t) = digitsValAcc (digitsValAcc a s) t := by
  simp [digitsValAcc]

theorem digitsValAcc_eq (s : Str) : ∀ a : Nat, digitsValAcc a s = a * 10 ^ s.length + digitsVal s := by
  induction s with
  | nil => intro a; simp [digitsValAcc, digitsVal]
  | cons c s ih =>
    intro a
    have h1 : digitsValAcc a (c :: s) = digitsValAcc (a * 10 + (c.toNat - 48)) s := rfl
    have h2 : digitsVal (c :: s) = digitsValAcc (0 * 10 + (c.toNat - 48)) s := rfl
    rw [h1, h2, ih, ih (0 * 10 + (c.toNat - 48)), List.length_cons, Nat.pow_succ]
    grind

theorem natStrGo_spec : ∀ (fuel n : Nat) (acc : Str), n < fuel →
    ∃ ds : Str, natStrGo fuel n acc = ds ++ acc ∧ ds ≠ [] ∧ ds.all isDigit = true ∧
      digitsVal ds = n ∧ (ds.head? = some '0' → ds.length = 1)
  | 0, n, acc, h => by omega
  | fuel + 1, n, acc, h => by
    rw [natStrGo]
    by_cases hn : n < 10
    · rw [if_pos hn]
      refine ⟨[digitC n], rfl, by simp, by simp [digitC_isDigit hn], ?_, by simp⟩
      simp [digitsVal, digitC_toNat hn]
    · rw [if_neg hn]
      obtain ⟨ds, h1, h2, h3, h4, h5⟩ := natStrGo_spec fuel (n / 10) (digitC (n % 10) :: acc) (by omega)
      have hm : n % 10 < 10 := by omega
      refine ⟨ds ++ [digitC (n % 10)], by simp [h1], by simp, ?_, ?_, ?_⟩
      · simp [List.all_append, h3, digitC_isDigit hm]
      · have : digitsVal (ds ++ [digitC (n % 10)]) = digitsValAcc (digitsVal ds) [digitC (n % 10)] :=
          digitsValAcc_append 0 ds _
        rw [this, digitsValAcc_eq, h4]
        simp [digitsVal, digitC_toNat hm]; omega
      · intro hh
        cases ds with
        | nil => contradiction
        | cons d ds' =>
          have := h5 (by simpa using hh)
          have hd : ds' = [] := by simpa using this
          subst hd
          simp at hh
          subst hh
          simp [digitsVal] at h4
          omega

theorem natStr_spec (n : Nat) : natStr n ≠ [] ∧ (natStr n).all isDigit = true ∧
    digitsVal (natStr n) = n ∧ ((natStr n).head? = some '0' → (natStr n).length = 1) := by
  obtain ⟨ds, h1, h2⟩ := natStrGo_spec (n + 1) n [] (by omega)
  rw [natStr, h1]
  simpa using h2

theorem natStr_ne_nil (n : Nat) : natStr n ≠ [] := (natStr_spec n).1
theorem natStr_digits (n : Nat) : ∀ c ∈ natStr n, isDigit c = true := by
  simpa using (natStr_spec n).2.1
theorem natStr_val (n : Nat) : digitsVal (natStr n) = n := (natStr_spec n).2.2.1

theorem isDigit_bound {c : Char} (h : isDigit c = true) : 48 ≤ c.toNat ∧ c.toNat ≤ 57 := by
  simpa [isDigit] using h

theorem digitsVal_lt : ∀ s : Str, (∀ c ∈ s, isDigit c = true) → digitsVal s < 10 ^ s.length
  | [], _ => by simp [digitsVal]
  | c :: s, h => by
    have h1 : digitsVal (c :: s) = digitsValAcc (c.toNat - 48) s := by simp [digitsVal, digitsValAcc]
    have h2 := digitsVal_lt s (fun d hd => h d (by simp [hd]))
    have h3 := isDigit_bound (h c (by simp))
    rw [h1, digitsValAcc_eq, List.length_cons, Nat.pow_succ]
    have : (c.toNat - 48) * 10 ^ s.length ≤ 9 * 10 ^ s.length := Nat.mul_le_mul_right _ (by omega)
    omega

theorem natStr_lt (n : Nat) : n < 10 ^ (natStr n).length := by
  have := digitsVal_lt (natStr n) (natStr_digits n)
  rwa [natStr_val] at this

theorem natStr_inj {a b : Nat} (h : natStr a = natStr b) : a = b := by
  rw [← natStr_val a, h, natStr_val]

end Treeno
