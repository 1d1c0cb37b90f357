import Verif.Lemmas.LexMunch
import Verif.Lemmas.Digits
import Verif.Printer

/-!
# Tokens of composed texts

`Lx s ts`: wherever the text `s` is printed — after any indentation of its lines, and before any text
that starts with a separator — its tokens are `ts`.  `LxA s ts` is the same before any text at all.
-/
namespace Treeno

/-- Indent every line after the first by `k`. -/
def ind (k : Nat) : Str → Str
  | [] => []
  | c :: s => if c = '\n' then '\n' :: (spaces k ++ ind k s) else c :: ind k s

/-- Characters that end any word, number or quoted token. -/
def safeCs : List Char :=
  [' ', '\n', ',', ')', '(', '[', ']', '+', '*', '%', '?', '=', '<', '>', '/', '|', '-']

/-- The character is one of them. -/
def safeC (c : Char) : Bool := safeCs.contains c

/-- The text is empty or starts with such a character. -/
def Safe : Str → Bool
  | [] => true
  | c :: _ => safeC c

/-- See the header. -/
def Lx (s : Str) (ts : List Tok) : Prop :=
  ∀ k rest, Safe rest = true → toks (ind k s ++ rest) = ts ++ toks rest

/-- See the header. -/
def LxA (s : Str) (ts : List Tok) : Prop := ∀ k rest, toks (ind k s ++ rest) = ts ++ toks rest

@[simp] theorem ind_nil (k : Nat) : ind k [] = [] := rfl

theorem ind_append (k : Nat) (a b : Str) : ind k (a ++ b) = ind k a ++ ind k b := by
  induction a with
  | nil => rfl
  | cons c a ih =>
    simp only [List.cons_append, ind]
    split <;> simp [ih]

theorem ind_plain (k : Nat) (s : Str) (h : '\n' ∉ s) : ind k s = s := by
  induction s with
  | nil => rfl
  | cons c s ih =>
    simp only [List.mem_cons, not_or] at h
    simp [ind, Ne.symm h.1, ih h.2]

theorem ind_spaces (k j : Nat) : ind k (spaces j) = spaces j := by
  apply ind_plain
  simp [spaces, List.mem_replicate]

theorem ind_ind (j k : Nat) (s : Str) : ind j (ind k s) = ind (j + k) s := by
  induction s with
  | nil => rfl
  | cons c s ih =>
    simp only [ind]
    split
    · simp only [ind, if_true]
      rw [ind_append, ind_spaces, ih]
      simp only [spaces]
      rw [← List.append_assoc, List.replicate_append_replicate]
    · rename_i h; simp [ind, h, ih]

theorem ind_zero (s : Str) : ind 0 s = s := by
  induction s with
  | nil => rfl
  | cons c s ih =>
    simp only [ind, ih, spaces]
    split
    · simp [*]
    · rfl

theorem Safe_ind (k : Nat) (s r : Str) (h : Safe (s ++ r) = true) : Safe (ind k s ++ r) = true := by
  cases s with
  | nil => exact h
  | cons c s =>
    simp only [List.cons_append, Safe] at h
    simp only [ind]
    split
    · rfl
    · exact h

/-- The text starts with a separator. -/
def SafeHd : Str → Bool
  | [] => false
  | c :: _ => safeC c

theorem SafeHd_safe {s r : Str} (h : SafeHd s = true) : Safe (s ++ r) = true := by
  cases s with
  | nil => simp [SafeHd] at h
  | cons c s => exact h

theorem SafeHd_append {s r : Str} (h : SafeHd s = true) : SafeHd (s ++ r) = true := by
  cases s with
  | nil => simp [SafeHd] at h
  | cons c s => exact h

theorem LxA.lx {s ts} (h : LxA s ts) : Lx s ts := fun k rest _ => h k rest

theorem LxA.nil : LxA [] [] := fun _ _ => rfl

/-- Composition: the second part starts with a separator. -/
theorem Lx.append {s1 s2 : Str} {t1 t2 : List Tok} (h1 : Lx s1 t1) (h2 : Lx s2 t2)
    (hs : SafeHd s2 = true) : Lx (s1 ++ s2) (t1 ++ t2) := by
  intro k rest hr
  rw [ind_append, List.append_assoc, h1 _ _ (Safe_ind _ _ _ (SafeHd_safe hs)), h2 _ _ hr,
    List.append_assoc]

theorem Lx.appendA {s1 s2 : Str} {t1 t2 : List Tok} (h1 : Lx s1 t1) (h2 : LxA s2 t2)
    (hs : SafeHd s2 = true) : LxA (s1 ++ s2) (t1 ++ t2) := by
  intro k rest
  rw [ind_append, List.append_assoc, h1 _ _ (Safe_ind _ _ _ (SafeHd_safe hs)), h2,
    List.append_assoc]

theorem LxA.append {s1 s2 : Str} {t1 t2 : List Tok} (h1 : LxA s1 t1) (h2 : LxA s2 t2) :
    LxA (s1 ++ s2) (t1 ++ t2) := by
  intro k rest
  rw [ind_append, List.append_assoc, h1, h2, List.append_assoc]

theorem LxA.appendLx {s1 s2 : Str} {t1 t2 : List Tok} (h1 : LxA s1 t1) (h2 : Lx s2 t2) :
    Lx (s1 ++ s2) (t1 ++ t2) := by
  intro k rest hr
  rw [ind_append, List.append_assoc, h1, h2 _ _ hr, List.append_assoc]

theorem Lx.ind {s ts} (j : Nat) (h : Lx s ts) : Lx (ind j s) ts := by
  intro k rest hr
  rw [ind_ind]; exact h _ _ hr

theorem LxA.ind {s ts} (j : Nat) (h : LxA s ts) : LxA (ind j s) ts := by
  intro k rest
  rw [ind_ind]; exact h _ _

theorem Lx.toks {s ts} (h : Lx s ts) : toks s = ts := by
  have := h 0 [] rfl
  simpa [ind_zero] using this

/-! ## One token -/

theorem toks_step {c : Char} {s r : Str} {t : Tok} (h : lexOne c s = (t, r)) :
    toks (c :: s) = if t.visible then t :: toks r else toks r := by
  rw [toks_cons, h]

theorem toks_dropWs (s : Str) : toks (s.dropWhile isWs) = toks s := by
  cases s with
  | nil => rfl
  | cons c s =>
    cases hc : isWs c with
    | true => rw [toks_step (lexOne_ws s hc)]; rfl
    | false => rw [List.dropWhile_cons]; simp [hc]

theorem toks_ws (c : Char) (s : Str) (h : isWs c = true) : toks (c :: s) = toks s := by
  rw [← toks_dropWs (c :: s), List.dropWhile_cons, if_pos h, toks_dropWs]

theorem toks_spaces (k : Nat) (s : Str) : toks (spaces k ++ s) = toks s := by
  induction k with
  | zero => rfl
  | succ k ih =>
    show toks (' ' :: (spaces k ++ s)) = _
    rw [toks_ws _ _ (by decide), ih]

theorem LxA.space : LxA (c% " ") [] := fun _ rest => toks_ws ' ' rest (by decide)

theorem LxA.newline : LxA (c% "\n") [] := by
  intro k rest
  show toks ('\n' :: ((spaces k ++ []) ++ rest)) = _
  rw [toks_ws _ _ (by decide), List.append_nil, toks_spaces]; rfl

theorem LxA.spaces (j : Nat) : LxA (spaces j) [] := by
  intro k rest
  rw [ind_spaces, toks_spaces]; rfl

theorem safe_cases {r : Str} (h : Safe r = true) : r = [] ∨ ∃ c s, r = c :: s ∧ safeC c = true := by
  cases r with
  | nil => exact .inl rfl
  | cons c s => exact .inr ⟨c, s, rfl, h⟩

theorem safeC_mem {c : Char} (h : safeC c = true) : c ∈ safeCs := by
  simpa [safeC] using h

theorem safeC_not_id {c : Char} (h : safeC c = true) : isIdChar c = false := by
  have : ∀ c ∈ safeCs, isIdChar c = false := by decide
  exact this c (safeC_mem h)

theorem safeC_ne {c d : Char} (h : safeC c = true) (hd : safeC d = false) : c ≠ d := by
  rintro rfl; rw [h] at hd; simp at hd

theorem takeWhile_safe (p : Char → Bool) (w r : Str) (hp : ∀ c ∈ w, p c = true)
    (hs : ∀ c, safeC c = true → p c = false) (h : Safe r = true) :
    (w ++ r).takeWhile p = w ∧ (w ++ r).dropWhile p = r := by
  rcases safe_cases h with rfl | ⟨c, s, rfl, hc⟩
  · simp only [List.append_nil]
    have h1 := List.takeWhile_append_of_pos (l₂ := []) hp
    have h2 := List.dropWhile_append_of_pos (l₂ := []) hp
    rw [List.append_nil] at h1 h2
    exact ⟨by simpa using h1, by simpa using h2⟩
  · exact takeWhile_stop p w s c hp (hs c hc)

/-- A word: a keyword or an identifier. -/
theorem toks_word (c : Char) (w r : Str) (h1 : isIdStart c = true) (h2 : ∀ d ∈ w, isIdChar d = true)
    (h : Safe r = true) :
    toks (c :: (w ++ r)) = ⟨if isKeyword (c :: w) then .kw else .ident, c :: w⟩ :: toks r := by
  have hw : wordTok (c :: (w ++ r)) =
      (⟨if isKeyword (c :: w) then .kw else .ident, c :: w⟩, r) := by
    obtain ⟨a, b⟩ := takeWhile_safe isIdChar (c :: w) r
      (by simpa using ⟨isIdStart_isIdChar h1, h2⟩) (fun _ => safeC_not_id) h
    rw [List.cons_append] at a b
    unfold wordTok
    rw [a, b]
  have hl : lexWord (c :: (w ++ r)) = wordTok (c :: (w ++ r)) := by
    unfold lexWord
    split
    · rename_i r' heq
      injection heq with ha hb
      exfalso
      cases w with
      | nil =>
        simp only [List.nil_append] at hb
        rw [hb] at h
        exact absurd h (by simp [Safe, safeC, safeCs])
      | cons d w =>
        have := h2 d (by simp)
        simp only [List.cons_append] at hb
        injection hb with hb _
        rw [hb] at this; exact absurd this (by decide)
    · rename_i r' heq
      injection heq with ha hb
      exfalso
      cases w with
      | nil =>
        simp only [List.nil_append] at hb
        rw [hb] at h
        exact absurd h (by simp [Safe, safeC, safeCs])
      | cons d w =>
        have := h2 d (by simp)
        simp only [List.cons_append] at hb
        injection hb with hb _
        rw [hb] at this; exact absurd this (by decide)
    · rfl
  rw [toks_step ((lexOne_id _ h1).trans (hl.trans hw)), if_pos]
  cases isKeyword (c :: w) <;> rfl

/-- A word that is a keyword. -/
theorem Lx.kw (w : Str) (h : isKeyword w = true) : Lx w [⟨.kw, w⟩] := by
  obtain ⟨⟨c, s, rfl, hc⟩, hall⟩ := keyword_chars w h
  intro k rest hr
  rw [ind_plain]
  · rw [List.cons_append, toks_word c s rest hc (fun d hd => hall d (by simp [hd])) hr, if_pos h]; rfl
  · intro hm; have := hall _ hm; exact absurd this (by decide)

/-- A word that is not a keyword. -/
theorem Lx.word (c : Char) (s : Str) (h1 : isIdStart c = true) (h2 : ∀ d ∈ s, isIdChar d = true)
    (h : isKeyword (c :: s) = false) : Lx (c :: s) [⟨.ident, c :: s⟩] := by
  intro k rest hr
  rw [ind_plain]
  · rw [List.cons_append, toks_word c s rest h1 h2 hr, if_neg (by simp [h])]; rfl
  · intro hm
    rcases List.mem_cons.1 hm with rfl | hm
    · exact absurd h1 (by decide)
    · exact absurd (h2 _ hm) (by decide)

/-- A one-character symbol that starts no other token. -/
def plainSym (c : Char) : Bool :=
  ['(', ')', ',', '[', ']', '+', '*', '%', '?'].contains c

theorem LxA.sym (c : Char) (h : plainSym c = true) : LxA [c] [⟨.sym, [c]⟩] := by
  have hm : c ∈ ['(', ')', ',', '[', ']', '+', '*', '%', '?'] := by simpa [plainSym] using h
  intro k rest
  have hl : lexOne c rest = (⟨.sym, [c]⟩, rest) := by
    simp only [List.mem_cons, List.not_mem_nil, or_false] at hm
    rcases hm with rfl | rfl | rfl | rfl | rfl | rfl | rfl | rfl | rfl <;>
      (cases rest with
        | nil => rfl
        | cons d r =>
          rw [lexOne_sym _ _ (.inl (by decide)) (by decide) (by decide) (by decide)]
          unfold lexSym
          split
          · rename_i d' r' heq
            injection heq with h1 h2
            subst h1 h2
            rw [if_neg]
            · rfl
            · simp [twoSyms]
          · rename_i heq; simp at heq)
  have hn : c ≠ '\n' := by rintro rfl; exact absurd h (by decide)
  show toks (Treeno.ind k [c] ++ rest) = _
  rw [ind_plain _ _ (by simpa using hn.symm), List.singleton_append, toks_step hl]
  rfl

theorem LxA.lpar : LxA (c% "(") [⟨.sym, c% "("⟩] := LxA.sym _ (by decide)
theorem LxA.rpar : LxA (c% ")") [⟨.sym, c% ")"⟩] := LxA.sym _ (by decide)
theorem LxA.comma : LxA (c% ",") [⟨.sym, c% ","⟩] := LxA.sym _ (by decide)

/-- Between parentheses. -/
theorem LxA.paren {s ts} (h : Lx s ts) :
    LxA (parenS s) (⟨.sym, c% "("⟩ :: (ts ++ [⟨.sym, c% ")"⟩])) := by
  have := (LxA.lpar.appendLx h).appendA LxA.rpar (by decide)
  simpa [parenS] using this

/-! ## Numbers -/

theorem safe_not_digit {c : Char} (h : safeC c = true) : isDigit c = false := by
  cases hd : isDigit c with
  | false => rfl
  | true => have := isDigit_isIdChar hd; rw [safeC_not_id h] at this; simp at this

theorem exponent_safe {r : Str} (h : Safe r = true) : exponent r = none := by
  rcases safe_cases h with rfl | ⟨c, s, rfl, hc⟩
  · rfl
  · unfold exponent
    split
    · rename_i heq; injection heq with h1 _; rw [h1] at hc; exact absurd hc (by decide)
    · rfl

/-- An integer literal. -/
theorem Lx.int (w : Str) (h : Spec.Digits w) : Lx w [⟨.int, w⟩] := by
  obtain ⟨c, s, rfl, hc⟩ := digit_head h
  intro k rest hr
  have hno : '\n' ∉ c :: s := by
    intro hm; exact absurd (h.2 _ hm) (by decide)
  rw [ind_plain _ _ hno]
  obtain ⟨a, b⟩ := takeWhile_safe isDigit (c :: s) rest h.2 (fun _ => safe_not_digit) hr
  have a' := (takeWhile_safe isIdChar (c :: s) rest (fun d hd => isDigit_isIdChar (h.2 d hd))
    (fun _ => safeC_not_id) hr).1
  have hm : mantissa (c :: s ++ rest) = (.int, c :: s, rest) := by
    have hnd : ∀ r', rest ≠ '.' :: r' := by
      rintro r' rfl; exact absurd hr (by simp [Safe, safeC, safeCs])
    unfold mantissa
    rw [a, b]
    split
    · exact absurd rfl (hnd _)
    · rfl
  have hl : lexOne c (s ++ rest) = (⟨.int, c :: s⟩, rest) := by
    rw [lexOne_digit _ hc, lexNumber]
    have : lexNum (c :: (s ++ rest)) = (⟨.int, c :: s⟩, rest) := by
      unfold lexNum
      rw [List.cons_append] at hm
      rw [hm]
      simp [exponent_safe hr]
    rw [this]
    rw [List.cons_append] at a'
    rw [a']
    simp
  rw [List.cons_append, toks_step hl]; rfl

theorem Lx.nat (n : Nat) : Lx (natStr n) [⟨.int, natStr n⟩] :=
  Lx.int _ ⟨natStr_ne_nil n, natStr_digits n⟩

/-! ## Literal pieces of text -/

/-- Words, spaces and one-character symbols only; `w`: inside a word. -/
def simple : Bool → Str → Bool
  | _, [] => true
  | w, c :: s =>
    if isIdChar c then (w || isIdStart c) && simple true s
    else (c == ' ' || plainSym c) && simple false s

/-- The text does not end inside a word. -/
def endOK (s : Str) : Bool := match s.getLast? with
  | none => true
  | some c => !isIdChar c

theorem simple_dropWord : ∀ (s : Str), simple true s = true →
    simple false (s.dropWhile isIdChar) = true
  | [], _ => rfl
  | c :: s, h => by
    rw [List.dropWhile_cons]
    by_cases hc : isIdChar c = true
    · rw [if_pos hc]
      simp only [simple, hc, if_true, Bool.true_or, Bool.true_and] at h
      exact simple_dropWord s h
    · rw [if_neg hc]
      simp only [simple] at h ⊢
      rw [if_neg hc] at h ⊢
      exact h

theorem plainSym_safe {c : Char} (h : plainSym c = true) : safeC c = true := by
  have h1 : c ∈ ['(', ')', ',', '[', ']', '+', '*', '%', '?'] := by simpa [plainSym] using h
  have : ∀ c ∈ ['(', ')', ',', '[', ']', '+', '*', '%', '?'], safeC c = true := by decide
  exact this c h1

theorem toks_simple (n : Nat) : ∀ (s : Str), s.length ≤ n → simple false s = true → ∀ rest : Str,
    (endOK s = true ∨ Safe rest = true) → toks (s ++ rest) = toks s ++ toks rest := by
  induction n with
  | zero =>
    intro s hs _ rest _
    cases s with
    | nil => rfl
    | cons c s => simp at hs
  | succ n ih =>
    intro s hs h rest hr
    cases s with
    | nil => rfl
    | cons c s =>
      have hend : ∀ s', s' <:+ s → s' ≠ [] → (endOK s' = true ∨ Safe rest = true) := by
        intro s' hsuf hne
        rcases hr with hr | hr
        · left
          obtain ⟨p, rfl⟩ := hsuf
          have : (c :: (p ++ s')).getLast? = s'.getLast? := by
            rw [← List.cons_append, List.getLast?_append]
            cases hh : s'.getLast? with
            | none => exact absurd (List.getLast?_eq_none_iff.1 hh) hne
            | some x => rfl
          unfold endOK at hr ⊢
          rw [this] at hr
          exact hr
        · exact .inr hr
      by_cases hc : isIdChar c = true
      · have hst : isIdStart c = true := by
          simp only [simple, hc, if_true, Bool.false_or, Bool.and_eq_true] at h
          exact h.1
        have hs' : simple true s = true := by
          simp only [simple, hc, if_true, Bool.false_or, Bool.and_eq_true] at h
          exact h.2
        have hsp := List.takeWhile_append_dropWhile (p := isIdChar) (l := s)
        generalize hw : s.takeWhile isIdChar = w at hsp
        generalize hq : s.dropWhile isIdChar = q at hsp
        have hsq : simple false q = true := hq ▸ simple_dropWord s hs'
        have hall : ∀ d ∈ w, isIdChar d = true := by
          intro d hd; rw [← hw] at hd; exact takeWhile_mem hd
        have hq0 : Safe q = true := by
          cases q with
          | nil => rfl
          | cons d q =>
            have hd : isIdChar d = false := by
              have := List.head?_dropWhile_not (p := isIdChar) (l := s)
              rw [hq] at this
              simpa using this
            simp only [simple, hd] at hsq
            have := (Bool.and_eq_true _ _ ▸ hsq).1
            rw [Bool.or_eq_true] at this
            rcases this with h | h
            · rw [beq_iff_eq.1 h]; rfl
            · exact plainSym_safe h
        have hlen : q.length ≤ n := by
          have := congrArg List.length hsp
          simp at this hs
          omega
        rw [← hsp]
        have hsafe : Safe (q ++ rest) = true := by
          cases q with
          | nil =>
            rcases hr with hr | hr
            · exfalso
              rw [List.append_nil] at hsp
              rw [← hsp] at hr
              unfold endOK at hr
              have hm : (c :: w).getLast? = some ((c :: w).getLast (by simp)) :=
                List.getLast?_eq_some_getLast (by simp)
              rw [hm] at hr
              dsimp only at hr
              have hmem := List.getLast_mem (l := c :: w) (by simp)
              have : isIdChar ((c :: w).getLast (by simp)) = true := by
                rcases List.mem_cons.1 hmem with h | h
                · rw [h]; exact hc
                · exact hall _ h
              rw [this] at hr; simp at hr
            · exact hr
          | cons d q => exact hq0
        rw [List.cons_append, List.append_assoc, toks_word c w _ hst hall hsafe,
          toks_word c w _ hst hall hq0]
        cases q with
        | nil => simp
        | cons d q =>
          rw [ih (d :: q) hlen hsq rest (hend _ ⟨w, hsp⟩ (by simp))]
          rfl
      · have hs' : (c == ' ' || plainSym c) = true ∧ simple false s = true := by
          simp only [simple] at h
          rw [if_neg hc, Bool.and_eq_true] at h
          exact h
        have hrest : toks (s ++ rest) = toks s ++ toks rest := by
          cases s with
          | nil => rfl
          | cons d s => exact ih (d :: s) (by simpa using hs) hs'.2 rest (hend _ (List.suffix_refl _) (by simp))
        rcases Bool.or_eq_true _ _ ▸ hs'.1 with h1 | h1
        · rw [beq_iff_eq.1 h1, List.cons_append, toks_ws _ _ (by decide), toks_ws _ _ (by decide), hrest]
        · have h2 := LxA.sym c h1
          have hn : c ≠ '\n' := by rintro rfl; exact absurd h1 (by decide)
          have h3 : ∀ r : Str, toks (c :: r) = ⟨.sym, [c]⟩ :: toks r := by
            intro r
            have := h2 0 r
            rwa [ind_zero] at this
          rw [List.cons_append, h3, h3, hrest]; rfl

theorem simple_no_newline : ∀ (s : Str) (w : Bool), simple w s = true → '\n' ∉ s
  | [], _, _ => by simp
  | c :: s, w, h => by
    simp only [simple] at h
    have key : c ≠ '\n' ∧ ∃ w', simple w' s = true := by
      split at h
      · rename_i hc
        refine ⟨by rintro rfl; exact absurd hc (by decide), true, ?_⟩
        rw [Bool.and_eq_true] at h; exact h.2
      · rw [Bool.and_eq_true, Bool.or_eq_true] at h
        refine ⟨?_, false, h.2⟩
        rintro rfl
        rcases h.1 with h | h <;> exact absurd h (by decide)
    obtain ⟨h1, w', h2⟩ := key
    simp only [List.mem_cons, not_or]
    exact ⟨Ne.symm h1, simple_no_newline s w' h2⟩

/-- A literal piece of text ending inside a word. -/
theorem Lx.lit (s : Str) (ts : List Tok) (h : (simple false s && Treeno.toks s == ts) = true) : Lx s ts := by
  rw [Bool.and_eq_true, beq_iff_eq] at h
  intro k rest hr
  rw [ind_plain _ _ (simple_no_newline _ _ h.1), toks_simple _ s (Nat.le_refl _) h.1 rest (.inr hr), h.2]

/-- A literal piece of text ending with a separator. -/
theorem LxA.lit (s : Str) (ts : List Tok) (h : (simple false s && endOK s && toks s == ts) = true) :
    LxA s ts := by
  rw [Bool.and_eq_true, Bool.and_eq_true, beq_iff_eq] at h
  intro k rest
  rw [ind_plain _ _ (simple_no_newline _ _ h.1.1), toks_simple _ s (Nat.le_refl _) h.1.1 rest (.inl h.1.2), h.2]

example : LxA (c% " IS NOT DISTINCT FROM ")
    [⟨.kw, c% "IS"⟩, ⟨.kw, c% "NOT"⟩, ⟨.kw, c% "DISTINCT"⟩, ⟨.kw, c% "FROM"⟩] :=
  LxA.lit _ _ (by decide +kernel)

end Treeno
