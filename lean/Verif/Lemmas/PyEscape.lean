import Verif.Lemmas.Unicode
import Verif.Spec.PyEscape
/-!
# Decoding the escapes of Python
-/
set_option linter.unusedSimpArgs false
namespace Treeno
open Spec

theorem unescape_escape {x p r : Str} (h : escapeAt (x ++ r) = .ok (p, x.length)) :
    unescapeGo 0 ('\\' :: (x ++ r)) = (unescapeGo 0 r).map (p ++ ·) := by
  rw [unescapeGo, if_pos rfl, h]
  show (do let s ← unescapeGo x.length (x ++ r); Except.ok (p ++ s)) = _
  rw [unescapeGo_skip]
  cases unescapeGo 0 r <;> rfl

theorem prep_small {e c : Char} (hc : c ≠ e) (h : c.toNat < 256) : prepC e c = [c] := by
  rw [prepC, if_neg hc, rawEscape, if_pos h]

theorem prep_smalls {e : Char} : ∀ {d : Str}, (∀ x ∈ d, x.toNat < 256) → e ∉ d → d.flatMap (prepC e) = d
  | [], _, _ => rfl
  | c :: d, h, he => by
    rw [List.flatMap_cons, prep_smalls (fun x hx => h x (List.mem_cons_of_mem _ hx)) (fun m => he (List.mem_cons_of_mem _ m)),
      prep_small (show c ≠ e from fun e' => he (e' ▸ List.mem_cons_self)) (h c List.mem_cons_self)]
    rfl

theorem octal_mem {c : Char} : isOctal c = true ↔ c ∈ c% "01234567" := by
  constructor
  · intro h
    have h : 48 ≤ c.toNat ∧ c.toNat ≤ 55 := by simpa [isOctal] using h
    obtain ⟨n, hn⟩ : ∃ n : Fin 8, c.toNat = 48 + n.val := ⟨⟨c.toNat - 48, by omega⟩, by simp; omega⟩
    have : c = Char.ofNat (48 + n.val) := by rw [← hn, Char.ofNat_toNat]
    rw [this]
    exact (by decide : ∀ n : Fin 8, Char.ofNat (48 + n.val) ∈ c% "01234567") n
  · intro h
    exact (by decide : ∀ c ∈ c% "01234567", isOctal c = true) c h

theorem octal_value : ∀ c ∈ c% "01234567", (place c (c% "01234567")).getD 0 = c.toNat - 48 := by decide +kernel

theorem octal_fold : ∀ (o : Str) (a : Nat), (∀ x ∈ o, x ∈ c% "01234567") →
    o.foldl (fun a d => a * 8 + (d.toNat - 48)) a = a * 8 ^ o.length + number8 o
  | [], a, _ => by simp [number8]
  | c :: o, a, h => by
    rw [List.foldl_cons, octal_fold o _ fun x hx => h x (List.mem_cons_of_mem _ hx), number8,
      octal_value c (h c List.mem_cons_self), List.length_cons, Nat.pow_succ, Nat.add_mul, Nat.mul_assoc,
      Nat.mul_comm 8 (8 ^ o.length), Nat.add_assoc]

theorem takeWhile_all {p : Char → Bool} : ∀ {o : Str} (r : Str), (∀ x ∈ o, p x = true) →
    (o ++ r).takeWhile p = o ++ r.takeWhile p
  | [], _, _ => rfl
  | c :: o, r, h => by
    rw [List.cons_append, List.takeWhile_cons, h c List.mem_cons_self, if_pos rfl,
      takeWhile_all r fun x hx => h x (List.mem_cons_of_mem _ hx)]
    rfl

/-- The next character, as it stands before decoding, is no octal digit. -/
theorem head_octal {e : Char} {r : Str} (h : ∀ x, r.head? = some x → x ∈ c% "01234567" → x = e) (k : Nat) :
    (((r.flatMap (prepC e)).take k).takeWhile isOctal) = [] := by
  cases r with
  | nil => simp
  | cons x r =>
    rw [List.flatMap_cons]
    have h2 := h x rfl
    cases k with
    | zero => rfl
    | succ k =>
      unfold prepC rawEscape
      by_cases hx : x = e
      · rw [if_pos hx]; rfl
      · rw [if_neg hx]
        split
        · show (x :: List.take k _).takeWhile isOctal = []
          rw [List.takeWhile_cons, if_neg]
          intro ho
          exact hx (h2 (octal_mem.mp ho))
        · split <;> rfl

theorem escape_octal {e : Char} {o r : Str} (h1 : o ≠ []) (h2 : o.length ≤ 3) (h3 : ∀ x ∈ o, x ∈ c% "01234567")
    (h5 : o.length = 3 ∨ ∀ x, r.head? = some x → x ∈ c% "01234567" → x = e) :
    escapeAt (o ++ r.flatMap (prepC e)) = .ok ([Char.ofNat (number8 o)], o.length) := by
  have hall : ∀ x ∈ o, isOctal x = true := fun x hx => octal_mem.mpr (h3 x hx)
  have ht : ((o ++ r.flatMap (prepC e)).take 3).takeWhile isOctal = o := by
    rw [List.take_append, List.take_of_length_le h2, takeWhile_all _ hall]
    rcases h5 with h5 | h5
    · rw [h5]; simp
    · rw [head_octal h5, List.append_nil]
  cases o with
  | nil => exact absurd rfl h1
  | cons c o =>
    have hc := h3 c List.mem_cons_self
    have key : ∀ c ∈ c% "01234567", c ≠ 'u' ∧ c ≠ 'U' ∧ c ≠ 'x' ∧ c ≠ 'N' ∧ c ≠ '\n' ∧ letterAt c = none := by decide +kernel
    obtain ⟨k1, k2, k3, k4, k5, k6⟩ := key c hc
    rw [List.cons_append] at ht ⊢
    rw [escapeAt, if_neg k1, if_neg k2, if_neg k3, if_neg k4, if_neg k5, k6]
    dsimp only
    rw [if_pos (hall c List.mem_cons_self), ht, octal_fold _ 0 h3]
    simp

theorem escape_other {c : Char} (h : c ∉ pyKnown) (r : Str) : escapeAt (c :: r) = .ok (['\\', c], 1) := by
  have hn : ∀ x ∈ pyKnown, c ≠ x := fun x hx e => h (e ▸ hx)
  have ho : isOctal c = false := by
    cases ho : isOctal c with
    | false => rfl
    | true =>
      have := octal_mem.mp ho
      exact absurd this (fun m => h ((by decide : ∀ x ∈ c% "01234567", x ∈ pyKnown) c m))
  have hl : letterAt c = none := by
    unfold letterAt
    rw [if_neg, if_neg (hn 'b' (by decide)), if_neg (hn 'f' (by decide)), if_neg (hn 't' (by decide)), if_neg (hn 'n' (by decide)),
      if_neg (hn 'r' (by decide)), if_neg (hn 'v' (by decide)), if_neg (hn 'a' (by decide))]
    rintro (h | h | h)
    · exact hn '\\' (by decide) h
    · exact hn '\'' (by decide) h
    · exact hn '"' (by decide) h
  rw [escapeAt, if_neg (hn 'u' (by decide)), if_neg (hn 'U' (by decide)), if_neg (hn 'x' (by decide)), if_neg (hn 'N' (by decide)),
    if_neg (hn '\n' (by decide)), hl]
  dsimp only
  rw [ho]; rfl

theorem map_okay {α β : Type} (f : α → β) {x : Except Err α} {a : α} (h : x = .ok a) : x.map f = .ok (f a) := by rw [h]; rfl

theorem py_decoded {e : Char} (he : e ≠ '\\') : ∀ {b v : Str}, PyText e b v → unescapeGo 0 (b.flatMap (prepC e)) = .ok v := by
  intro b v h
  have hb : prepC e '\\' = ['\\'] := prep_small he.symm (by decide)
  induction h with
  | nil => rfl
  | char h1 h2 _ ih =>
    rw [List.flatMap_cons, prepC, if_neg h1, unescape_raw h2, ih]; rfl
  | code hd hn _ ih =>
    rw [List.flatMap_cons, List.flatMap_append, prep_digits hd.2.1 hn, prepC, if_pos rfl]
    refine (unescape_u hd.1 hd.2.1 hd.2.2 _).trans ?_
    rw [ih]; rfl
  | @letter c d r v hm hc _ ih =>
    have key : ∀ x ∈ pyLetters, x.1.toNat < 256 ∧ ∀ r, escapeAt ([x.1] ++ r) = .ok ([x.2], 1) := by
      intro x hx
      simp only [pyLetters, List.mem_cons, List.not_mem_nil, or_false] at hx
      rcases hx with rfl | rfl | rfl | rfl | rfl | rfl | rfl | rfl | rfl | rfl <;> exact ⟨by decide, fun _ => rfl⟩
    obtain ⟨k1, k2⟩ := key _ hm
    rw [List.flatMap_cons, List.flatMap_cons, hb, prep_small hc k1]
    exact (unescape_escape (x := [c]) (k2 _)).trans (map_okay _ ih)
  | line hn _ ih =>
    rw [List.flatMap_cons, List.flatMap_cons, hb, prep_small hn.symm (by decide)]
    exact (unescape_escape (x := ['\n']) (p := []) rfl).trans (map_okay _ ih)
  | @number c k d r v hm hc hl hd hv hn _ ih =>
    have key : ∀ x ∈ pyCodes, x.1.toNat < 256 ∧ ∀ r, escapeAt (x.1 :: r) = codeAt x.2 r := by
      intro x hx
      simp only [pyCodes, List.mem_cons, List.not_mem_nil, or_false] at hx
      rcases hx with rfl | rfl | rfl <;> exact ⟨by decide, fun _ => rfl⟩
    obtain ⟨k1, k2⟩ := key _ hm
    rw [List.flatMap_cons, List.flatMap_cons, List.flatMap_append, hb, prep_small hc k1, prep_digits hd hn]
    refine (unescape_escape (x := c :: d) (p := [Char.ofNat (number16 d)]) ?_).trans (map_okay _ ih)
    rw [List.cons_append, k2, codeAt_ok hl hd hv, List.length_cons, hl]
  | @octal o r v h1 h2 h3 h4 h5 _ ih =>
    rw [List.flatMap_cons, List.flatMap_append, hb, prep_smalls (fun x hx => (by decide : ∀ x ∈ c% "01234567", x.toNat < 256) x (h3 x hx)) h4]
    exact (unescape_escape (escape_octal h1 h2 h3 h5)).trans (map_okay _ ih)
  | @other c r v h1 h2 h3 _ ih =>
    rw [List.flatMap_cons, List.flatMap_cons, hb, prep_small h2 h1]
    exact (unescape_escape (x := [c]) (p := ['\\', c]) (escape_other h3 _)).trans (map_okay _ ih)

end Treeno
