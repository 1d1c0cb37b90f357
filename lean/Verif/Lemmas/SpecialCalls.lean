import Verif.Spec.SqlMeaning
import Verif.Lemmas.ConvEqs
import Verif.Lemmas.CheckEqs
/-!
# Functions with a syntax of their own called by a quoted name
-/
set_option autoImplicit false
namespace Treeno
open Spec
set_option linter.unusedSimpArgs false

theorem sess_word (f : SessFn) : (f.name, Expr.session f) ∈ wordCalls := by
  cases f <;> simp [wordCalls, SessFn.name]
theorem cur_word (f : CurFn) : (f.name, Expr.curTime f 3) ∈ wordCalls := by
  cases f <;> simp [wordCalls, CurFn.name]
theorem word_own {n : Str} {e : Expr} (h : (n, e) ∈ wordCalls) : ownSyntax.contains n = true := by
  have : wordCalls.all (fun p => ownSyntax.contains p.1) = true := by decide +kernel
  exact List.all_eq_true.1 this _ h
/-- None of them stands for a column. -/
theorem word_forms {n : Str} {e : Expr} (h : (n, e) ∈ wordCalls) : (∃ f, e = .session f) ∨ ∃ f, e = .curTime f 3 := by
  simp only [wordCalls, List.mem_cons, List.not_mem_nil, or_false, Prod.mk.injEq] at h
  rcases h with h | h | h | h | h | h | h | h | h <;> rw [h.2] <;> first | exact .inl ⟨_, rfl⟩ | exact .inr ⟨_, rfl⟩

theorem special_build {e x : Expr} (h : Expr.build e = .ok x) : x = e := by
  unfold Expr.build at h
  cases hc : e.check with
  | error er => rw [hc] at h; exact nomatch h
  | ok t => rw [hc] at h; exact (Except.ok.inj h).symm

theorem no_keywords {ob : List Ord} {fl : Option Expr} {ign : Option Bool} {w : Option Win}
    (h : ¬ (w.isSome || !ob.isEmpty || fl.isSome || ign.isSome) = true) : ob = [] ∧ ign = none ∧ w = none ∧ fl = none := by
  rw [Bool.not_eq_true] at h
  simp only [Bool.or_eq_false_iff, Bool.not_eq_false', Option.isSome_eq_false_iff, Option.isNone_iff_eq_none, List.isEmpty_iff] at h
  exact ⟨h.1.1.2, h.2, h.1.1.1, h.1.2⟩

theorem special_of {n : Str} {args : List Expr} {ob : List Ord} {fl : Option Expr} {ign : Option Bool} {w : Option Win} {e : Expr}
    (h : specialOf n args ob fl ign w = .ok e) : SpecialCall ob fl ign w n args e := by
  unfold specialOf at h
  split at h
  · next hn =>
    subst hn
    unfold listaggCall at h
    split at h
    · split at h
      · exact nomatch h
      · next hb =>
        rw [Bool.not_eq_true] at hb
        simp only [Bool.or_eq_false_iff, Option.isSome_eq_false_iff, Option.isNone_iff_eq_none] at hb
        have ho : ob ≠ [] := by
          rintro rfl
          next v =>
          unfold Expr.build at h
          rw [Expr_check_listagg] at h
          cases hv : v.check with
          | error er => rw [hv] at h; exact nomatch h
          | ok t => rw [hv] at h; exact nomatch h
        rw [special_build h]
        exact .listagg ho (by simpa using hb.1.1) hb.1.2 hb.2
    · split at h <;> exact nomatch h
    · split at h <;> exact nomatch h
    · exact nomatch h
  · split at h
    · next hn =>
      subst hn
      split at h
      · exact nomatch h
      · next hb =>
        obtain ⟨h1, h2, h3, h4⟩ := no_keywords hb
        unfold normalizeCall at h
        split at h
        · rw [special_build h]; exact .normalize h1 h2 h3 h4
        · exact nomatch h
        · exact nomatch h
    · split at h
      · next f hf =>
        have hn : f.name = n := by have := List.find?_some hf; simpa using this
        split at h
        · exact nomatch h
        · next hb =>
          obtain ⟨h1, h2, h3, h4⟩ := no_keywords hb
          split at h
          · next ha =>
            rw [List.isEmpty_iff] at ha
            rw [special_build h, ha, ← hn]
            exact .word (sess_word f) h1 h2 h3 h4
          · exact nomatch h
      · split at h
        · next f hf =>
          have hn : f.name = n := by have := List.find?_some hf; simpa using this
          split at h
          · exact nomatch h
          · next hb =>
            obtain ⟨h1, h2, h3, h4⟩ := no_keywords hb
            unfold curTimeCall at h
            split at h
            · rw [special_build h, ← hn]; exact .word (cur_word f) h1 h2 h3 h4
            · next a =>
              cases hs : a.sql {} with
              | error er => rw [hs] at h; exact nomatch h
              | ok t => rw [hs] at h; exact nomatch h
            · exact nomatch h
        · exact nomatch h

theorem Spec.SpecialCall.own {n : Str} {args : List Expr} {ob : List Ord} {fl : Option Expr} {ign : Option Bool} {w : Option Win} {e : Expr}
    (h : SpecialCall ob fl ign w n args e) : ownSyntax.contains n = true := by
  cases h with
  | listagg => rfl
  | normalize => rfl
  | word h => exact word_own h

theorem Spec.SpecialCall.no_column {n : Str} {args : List Expr} {ob : List Ord} {fl : Option Expr} {ign : Option Bool} {w : Option Win}
    {e : Expr} (h : SpecialCall ob fl ign w n args e) : (∀ n t ty, e ≠ .field n t ty) ∧ ∀ n b ty, e ≠ .fieldOf n b ty := by
  cases h with
  | listagg => exact ⟨nofun, nofun⟩
  | normalize => exact ⟨nofun, nofun⟩
  | word hm => rcases word_forms hm with ⟨f, rfl⟩ | ⟨f, rfl⟩ <;> exact ⟨nofun, nofun⟩

theorem Spec.SpecialCall.star {n : Str} {v e : Expr} {fl : Option Expr} {ign : Option Bool} {w : Option Win}
    (h : SpecialCall [] fl ign w n [v] e) : n = c% "NORMALIZE" ∧ e = .normalize v none := by
  cases h with
  | listagg h => exact absurd rfl h
  | normalize => exact ⟨rfl, rfl⟩

end Treeno
