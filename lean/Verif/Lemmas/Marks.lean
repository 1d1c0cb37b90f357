import Verif.Lemmas.LexMunch
import Verif.Lemmas.RespellP
import Verif.Lemmas.ConvRespell
import Verif.Lemmas.SpelledMap
import Verif.Spec.Casing
/-!
# Two token lists that differ in the case of keywords are the images of one list

The keywords that differ are marked with spellings the lexer never makes: `sELECT` where the first list has
`select` and the second `SELECT`, `Select` where it is the other way round.
-/
namespace Treeno
open Spec

/-- `sELECT` -/
def mixA : Str → Str
  | [] => []
  | c :: r => lowerC c :: r
/-- `Select` -/
def mixB : Str → Str
  | [] => []
  | c :: r => c :: lower r

theorem keyword_table : ∀ k ∈ keywords, upper k = k ∧ upper (lower k) = k ∧ upper (mixA k) = k ∧ upper (mixB k) = k ∧
    mixA k ≠ mixB k ∧ mixA k ≠ k ∧ mixA k ≠ lower k ∧ mixB k ≠ k ∧ mixB k ≠ lower k ∧ lower k ≠ k := by
  decide +kernel
theorem upperKeyword_table : ∀ k ∈ upperKeywords, upper k = k := by decide +kernel

/-- The spellings of a keyword. -/
theorem keyword_cases {w : Str} (h : isKeyword w = true) :
    w = upper w ∨ (upper w ∈ keywords ∧ w = lower (upper w)) := by
  simp only [isKeyword, Bool.or_eq_true, List.contains_iff_mem] at h
  rcases h with (h | h) | h
  · exact .inl (keyword_table w h).1.symm
  · rw [List.mem_map] at h
    obtain ⟨k, hk, rfl⟩ := h
    rw [(keyword_table k hk).2.1]
    exact .inr ⟨hk, rfl⟩
  · exact .inl (upperKeyword_table w h).symm

/-- The marks read as the first (`false`) or the second (`true`) list has them. -/
def unmark (p : Str → Bool) (b : Bool) (t : Tok) : Tok :=
  if t.kind = .kw ∧ p (upper t.text) = true ∧ upper t.text ∈ keywords then
    if t.text = mixA (upper t.text) then ⟨.kw, if b then upper t.text else lower (upper t.text)⟩
    else if t.text = mixB (upper t.text) then ⟨.kw, if b then lower (upper t.text) else upper t.text⟩
    else t
  else t

section
variable {p : Str → Bool} {b : Bool} {t : Tok}

theorem unmark_out (h : ¬(t.kind = .kw ∧ p (upper t.text) = true ∧ upper t.text ∈ keywords)) : unmark p b t = t :=
  if_neg h
theorem unmark_A (h : t.kind = .kw ∧ p (upper t.text) = true ∧ upper t.text ∈ keywords)
    (ha : t.text = mixA (upper t.text)) : unmark p b t = ⟨.kw, if b then upper t.text else lower (upper t.text)⟩ := by
  rw [unmark, if_pos h, if_pos ha]
theorem unmark_B (h : t.kind = .kw ∧ p (upper t.text) = true ∧ upper t.text ∈ keywords)
    (ha : t.text = mixB (upper t.text)) : unmark p b t = ⟨.kw, if b then lower (upper t.text) else upper t.text⟩ := by
  rw [unmark, if_pos h, if_neg, if_pos ha]
  intro e
  exact (keyword_table _ h.2.2).2.2.2.2.1 (e.symm.trans ha)
theorem unmark_none (h1 : t.text ≠ mixA (upper t.text)) (h2 : t.text ≠ mixB (upper t.text)) : unmark p b t = t := by
  by_cases h : t.kind = .kw ∧ p (upper t.text) = true ∧ upper t.text ∈ keywords
  · rw [unmark, if_pos h, if_neg h1, if_neg h2]
  · exact unmark_out h
theorem unmark_cases (p : Str → Bool) (b : Bool) (t : Tok) :
    unmark p b t = t ∨ ((t.kind = .kw ∧ p (upper t.text) = true ∧ upper t.text ∈ keywords) ∧
      (unmark p b t = ⟨.kw, upper t.text⟩ ∨ unmark p b t = ⟨.kw, lower (upper t.text)⟩)) := by
  by_cases h : t.kind = .kw ∧ p (upper t.text) = true ∧ upper t.text ∈ keywords
  · by_cases ha : t.text = mixA (upper t.text)
    · rw [unmark_A h ha]
      cases b
      · exact .inr ⟨h, .inr rfl⟩
      · exact .inr ⟨h, .inl rfl⟩
    · by_cases hb : t.text = mixB (upper t.text)
      · rw [unmark_B h hb]
        cases b
        · exact .inr ⟨h, .inl rfl⟩
        · exact .inr ⟨h, .inr rfl⟩
      · exact .inl (unmark_none ha hb)
  · exact .inl (unmark_out h)
end

theorem unmark_keeps (p : Str → Bool) (b : Bool) : Keeps (unmark p b) where
  kind t := by
    rcases unmark_cases p b t with e | ⟨h, e | e⟩
    · rw [e]
    · rw [e, h.1]
    · rw [e, h.1]
  up t := by
    rcases unmark_cases p b t with e | ⟨h, e | e⟩
    · rw [e]
    · rw [e]; exact (keyword_table _ h.2.2).1
    · rw [e]; exact (keyword_table _ h.2.2).2.1
  other t ht := by
    rcases unmark_cases p b t with e | ⟨h, _⟩
    · exact e
    · exact absurd h.1 ht
  word t ht := by
    rcases unmark_cases p b t with e | ⟨h, _⟩
    · exact absurd e ht
    · exact h.2.2

/-- A token that both lists have alike is no mark. -/
theorem unmark_same {p : Str → Bool} {t : Tok} (h : unmark p false t = unmark p true t) :
    unmark p false t = t ∧ unmark p true t = t := by
  by_cases hk : t.kind = .kw ∧ p (upper t.text) = true ∧ upper t.text ∈ keywords
  · have hl := (keyword_table _ hk.2.2).2.2.2.2.2.2.2.2.2
    by_cases ha : t.text = mixA (upper t.text)
    · rw [unmark_A hk ha, unmark_A hk ha] at h
      exact absurd (congrArg Tok.text h) hl
    · by_cases hb : t.text = mixB (upper t.text)
      · rw [unmark_B hk hb, unmark_B hk hb] at h
        exact absurd (congrArg Tok.text h).symm hl
      · exact ⟨unmark_none ha hb, unmark_none ha hb⟩
  · exact ⟨unmark_out hk, unmark_out hk⟩

/-- Keywords are written as the lexer knows them. -/
def Lexed (ts : List Tok) : Prop := ∀ t ∈ ts, t.kind = .kw → isKeyword t.text = true

theorem lexed_unmarked {p : Str → Bool} {b : Bool} {t : Tok} (h : t.kind = .kw → isKeyword t.text = true) :
    unmark p b t = t := by
  by_cases hk : t.kind = .kw ∧ p (upper t.text) = true ∧ upper t.text ∈ keywords
  · obtain ⟨_, _, _, _, _, a1, a2, b1, b2, _⟩ := keyword_table _ hk.2.2
    rcases keyword_cases (h hk.1) with e | ⟨_, e⟩
    · exact unmark_none (fun k => a1 (k.symm.trans e)) (fun k => b1 (k.symm.trans e))
    · exact unmark_none (fun k => a2 (k.symm.trans e)) (fun k => b2 (k.symm.trans e))
  · exact unmark_out hk

theorem mark_tok {p : Str → Bool} {t u : Tok} (ht : t.kind = .kw → isKeyword t.text = true)
    (hu : u.kind = .kw → isKeyword u.text = true) (h : SameWord p t u) :
    ∃ v, unmark p false v = t ∧ unmark p true v = u := by
  rcases h with rfl | ⟨kt, ku, hup, hp⟩
  · exact ⟨t, lexed_unmarked ht, lexed_unmarked ht⟩
  · obtain ⟨k1, s1⟩ := t
    obtain ⟨k2, s2⟩ := u
    cases (kt : k1 = .kw)
    cases (ku : k2 = .kw)
    change upper s1 = upper s2 at hup
    change p (upper s1) = true at hp
    have c1 := keyword_cases (ht rfl : isKeyword s1 = true)
    have c2 := keyword_cases (hu rfl : isKeyword s2 = true)
    by_cases e : s1 = s2
    · subst e; exact ⟨⟨.kw, s1⟩, lexed_unmarked ht, lexed_unmarked ht⟩
    · rcases c1 with c1 | ⟨m1, c1⟩
      · rcases c2 with c2 | ⟨m2, c2⟩
        · exact absurd (c1.trans (hup.trans c2.symm)) e
        · refine ⟨⟨.kw, mixB (upper s1)⟩, ?_⟩
          rw [← hup] at m2 c2
          have ub : upper (mixB (upper s1)) = upper s1 := (keyword_table _ m2).2.2.2.1
          have hk : (Kind.kw = .kw ∧ p (upper (mixB (upper s1))) = true ∧ upper (mixB (upper s1)) ∈ keywords) := by
            rw [ub]; exact ⟨rfl, hp, m2⟩
          have hb : mixB (upper s1) = mixB (upper (mixB (upper s1))) := by rw [ub]
          rw [unmark_B (t := ⟨.kw, mixB (upper s1)⟩) hk hb, unmark_B (t := ⟨.kw, mixB (upper s1)⟩) hk hb]
          simp only [ub, if_true, Bool.false_eq_true, if_false]
          exact ⟨by rw [← c1], by rw [← c2]⟩
      · rcases c2 with c2 | ⟨m2, c2⟩
        · refine ⟨⟨.kw, mixA (upper s1)⟩, ?_⟩
          rw [← hup] at c2
          have ub : upper (mixA (upper s1)) = upper s1 := (keyword_table _ m1).2.2.1
          have hk : (Kind.kw = .kw ∧ p (upper (mixA (upper s1))) = true ∧ upper (mixA (upper s1)) ∈ keywords) := by
            rw [ub]; exact ⟨rfl, hp, m1⟩
          have hb : mixA (upper s1) = mixA (upper (mixA (upper s1))) := by rw [ub]
          rw [unmark_A (t := ⟨.kw, mixA (upper s1)⟩) hk hb, unmark_A (t := ⟨.kw, mixA (upper s1)⟩) hk hb]
          simp only [ub, if_true, Bool.false_eq_true, if_false]
          exact ⟨by rw [← c1], by rw [← c2]⟩
        · rw [← hup] at c2
          exact absurd (c1.trans c2.symm) e

theorem marks {p : Str → Bool} {ts us : List Tok} (h : SameWords p ts us) (ht : Lexed ts) (hu : Lexed us) :
    ∃ vs : List Tok, vs.map (unmark p false) = ts ∧ vs.map (unmark p true) = us := by
  induction h with
  | nil => exact ⟨[], rfl, rfl⟩
  | cons h1 _ ih =>
    obtain ⟨v, a, b⟩ := mark_tok (ht _ List.mem_cons_self) (hu _ List.mem_cons_self) h1
    obtain ⟨vs, as, bs⟩ := ih (fun t m => ht t (List.mem_cons_of_mem _ m)) (fun t m => hu t (List.mem_cons_of_mem _ m))
    exact ⟨v :: vs, by rw [List.map_cons, a, as], by rw [List.map_cons, b, bs]⟩

theorem lexGo_lexed : ∀ (n : Nat) (s : Str), Lexed (lexGo n s)
  | _, [] => by intro t ht; cases ‹Nat› <;> exact nomatch ht
  | 0, _ :: _ => fun _ ht => nomatch ht
  | n + 1, c :: s => by
    intro t ht hk
    rcases List.mem_cons.1 ht with rfl | ht
    · have m := lexOne_matches c s
      rw [hk] at m
      generalize (lexOne c s).1.text = w at m
      cases m with
      | kwUpper _ h => simp [isKeyword, h]
      | kwLower k h =>
        have : lower k ∈ keywords.map lower := List.mem_map_of_mem h
        simp [isKeyword, this]
      | kwOnly _ h => simp [isKeyword, h]
    · exact lexGo_lexed n _ t ht hk
theorem toks_lexed (s : Str) : Lexed (toks s) := fun t ht hk => lexGo_lexed _ _ t (List.mem_filter.1 ht).1 hk

/-- Lists on which `unmark` agrees are kept by it. -/
theorem unmark_fixes {p : Str → Bool} : ∀ {ts : List Tok}, ts.map (unmark p false) = ts.map (unmark p true) →
    Fixes (unmark p false) ts ∧ Fixes (unmark p true) ts
  | [], _ => ⟨fun _ h => (nomatch h), fun _ h => (nomatch h)⟩
  | t :: ts, h => by
    rw [List.map_cons, List.map_cons] at h
    have h1 := unmark_same (List.head_eq_of_cons_eq h)
    have h2 := unmark_fixes (List.tail_eq_of_cons_eq h)
    constructor
    · intro u hu
      rcases List.mem_cons.1 hu with rfl | hu
      · exact h1.1
      · exact h2.1 u hu
    · intro u hu
      rcases List.mem_cons.1 hu with rfl | hu
      · exact h1.2
      · exact h2.2 u hu

end Treeno
