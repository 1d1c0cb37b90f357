import Verif.Lemmas.Lexer
import Verif.Spec.LexSpec
/-!
# The lexer takes the longest match
-/
namespace Treeno
open Spec

theorem takeWhile_longest (p : Char → Bool) (w r s : Str) (h : w ++ r = s)
    (hp : ∀ c ∈ w, p c = true) : w.length ≤ (s.takeWhile p).length := by
  subst h
  rw [List.takeWhile_append_of_pos hp]
  simp

theorem takeWhile_mem {p : Char → Bool} {s : Str} {c : Char} (h : c ∈ s.takeWhile p) :
    p c = true := by
  have := List.all_takeWhile (p := p) (l := s)
  exact List.all_eq_true.1 this c h

theorem takeWhile_stop (p : Char → Bool) (w r : Str) (d : Char) (hp : ∀ c ∈ w, p c = true)
    (hd : p d = false) : (w ++ d :: r).takeWhile p = w ∧ (w ++ d :: r).dropWhile p = d :: r := by
  rw [List.takeWhile_append_of_pos hp, List.dropWhile_append_of_pos hp]
  simp [hd]

/-! ## Quoted bodies -/

theorem quotedBody_matches (q : Char) (s b r : Str) (h : quotedBody q s = some (b, r)) :
    ∃ b', b = b' ++ [q] ∧ QBody q b' := by
  fun_induction quotedBody q s generalizing b r with
  | case1 => simp at h
  | case2 => simp at h; obtain ⟨rfl, rfl⟩ := h; exact ⟨[], rfl, .nil⟩
  | case3 => simp at h
  | case4 cs b' r' h' ih =>
    simp at h; obtain ⟨rfl, rfl⟩ := h
    obtain ⟨x, rfl, hx⟩ := ih _ _ h'
    exact ⟨q :: q :: x, rfl, .pair _ hx⟩
  | case5 => simp at h; obtain ⟨rfl, rfl⟩ := h; exact ⟨[], rfl, .nil⟩
  | case6 => simp at h; obtain ⟨rfl, rfl⟩ := h; exact ⟨[], rfl, .nil⟩
  | case7 c d cs hc ih =>
    simp only [Option.map_eq_some_iff, Prod.mk.injEq] at h
    obtain ⟨⟨a, b⟩, h1, rfl, rfl⟩ := h
    obtain ⟨x, hx, hb⟩ := ih _ _ h1
    exact ⟨c :: x, by simp [hx], .chr _ _ hc hb⟩

theorem quotedBody_longest (q : Char) (b r : Str) (h : QBody q b) :
    ∃ B R, quotedBody q (b ++ q :: r) = some (B, R) ∧ b.length + 1 ≤ B.length := by
  induction h with
  | nil =>
    cases r with
    | nil => exact ⟨[q], [], by simp [quotedBody]⟩
    | cons d cs =>
      simp only [List.nil_append, quotedBody]
      by_cases hd : d = q
      · subst hd
        simp only [if_true]
        split
        · exact ⟨_, _, rfl, by simp⟩
        · exact ⟨_, _, rfl, by simp⟩
      · simp only [if_true, if_neg hd]
        exact ⟨_, _, rfl, by simp⟩
  | chr c b hc _ ih =>
    obtain ⟨B, R, h1, h2⟩ := ih
    refine ⟨c :: B, R, ?_, by simp; omega⟩
    have : ∃ d ds, b ++ q :: r = d :: ds := by cases b <;> simp
    obtain ⟨d, ds, hd⟩ := this
    rw [List.cons_append, hd, quotedBody, if_neg hc, ← hd, h1]
    rfl
  | pair b _ ih =>
    obtain ⟨B, R, h1, h2⟩ := ih
    refine ⟨q :: q :: B, R, ?_, by simp; omega⟩
    simp [quotedBody, h1]

theorem binaryBody_matches (s b r : Str) (h : binaryBody s = some (b, r)) :
    ∃ b', b = b' ++ ['\''] ∧ '\'' ∉ b' := by
  fun_induction binaryBody s generalizing b r with
  | case1 => simp at h
  | case2 => simp at h; obtain ⟨rfl, rfl⟩ := h; exact ⟨[], rfl, by simp⟩
  | case3 c cs hc ih =>
    simp only [Option.map_eq_some_iff, Prod.mk.injEq] at h
    obtain ⟨⟨a, b⟩, h1, rfl, rfl⟩ := h
    obtain ⟨x, hx, hb⟩ := ih _ _ h1
    exact ⟨c :: x, by simp [hx], by simp [hb, Ne.symm hc]⟩

theorem binaryBody_longest (b r : Str) (h : '\'' ∉ b) :
    binaryBody (b ++ '\'' :: r) = some (b ++ ['\''], r) := by
  induction b with
  | nil => simp [binaryBody]
  | cons c b ih =>
    simp only [List.mem_cons, not_or] at h
    simp [binaryBody, ih h.2, Ne.symm h.1]

/-! ## Block comments -/

theorem infix_cons_of {a : Str} {c : Char} {s : Str} (h : a <:+: s) : a <:+: c :: s :=
  List.IsInfix.trans h (List.suffix_cons c s).isInfix

theorem commentBody_matches (s b r : Str) (h : commentBody s = some (b, r)) :
    ∃ b', b = b' ++ c% "*/" ∧ ¬ (c% "*/" <:+: b' ++ c% "*") := by
  fun_induction commentBody s generalizing b r with
  | case1 => simp at h
  | case2 => simp at h
  | case3 c d cs hc =>
    simp at h; obtain ⟨rfl, rfl⟩ := h
    refine ⟨[], rfl, ?_⟩
    intro h; have := h.length_le; simp at this
  | case4 c d cs hc ih =>
    simp only [Option.map_eq_some_iff, Prod.mk.injEq] at h
    obtain ⟨⟨a, b⟩, h1, rfl, rfl⟩ := h
    obtain ⟨x, hx, hb⟩ := ih _ _ h1
    refine ⟨c :: x, by simp [hx], ?_⟩
    intro hinf
    rw [List.cons_append, List.infix_cons_iff] at hinf
    rcases hinf with hp | hp
    · have happ := commentBody_append _ _ _ h1
      rw [hx] at happ
      cases x with
      | nil =>
        have := List.cons_prefix_cons.1 hp
        have h3 := this.2
        simp at h3
      | cons y ys =>
        have h2 := List.cons_prefix_cons.1 hp
        have h3 := List.cons_prefix_cons.1 h2.2
        simp at happ
        exact hc ⟨h2.1.symm, by rw [← happ.1]; exact h3.1.symm⟩
    · exact hb hp

theorem commentBody_longest (b r : Str) (h : ¬ (c% "*/" <:+: b ++ c% "*")) :
    commentBody (b ++ '*' :: '/' :: r) = some (b ++ c% "*/", r) := by
  induction b with
  | nil => simp [commentBody]
  | cons c b ih =>
    have hb : ¬ (c% "*/" <:+: b ++ c% "*") := fun h' => h (infix_cons_of h')
    have : ∃ d ds, b ++ '*' :: '/' :: r = d :: ds := by cases b <;> simp
    obtain ⟨d, ds, hd⟩ := this
    have hnot : ¬ (c = '*' ∧ d = '/') := by
      rintro ⟨rfl, rfl⟩
      cases b with
      | nil => simp at hd
      | cons y ys =>
        simp at hd
        apply h
        refine ⟨[], ys ++ c% "*", ?_⟩
        simp [hd.1]
    rw [List.cons_append, hd, commentBody, if_neg hnot, ← hd, ih hb]
    simp

/-! ## Line comments -/

def notNl (c : Char) : Bool := c != '\r' && c != '\n'

theorem lineComment_matches (s : Str) : ∃ b t, (lineComment s).1 = b ++ t ∧
    (∀ c ∈ b, c ≠ '\r' ∧ c ≠ '\n') ∧ (t = [] ∨ t = c% "\r" ∨ t = c% "\n" ∨ t = c% "\r\n") := by
  refine ⟨s.takeWhile notNl, ?_⟩
  have hb : ∀ c ∈ s.takeWhile notNl, c ≠ '\r' ∧ c ≠ '\n' := by
    intro c hc
    have := takeWhile_mem hc
    simpa [notNl] using this
  unfold lineComment
  dsimp only
  split
  · exact ⟨_, rfl, hb, by simp⟩
  · exact ⟨_, rfl, hb, by simp⟩
  · exact ⟨_, rfl, hb, by simp⟩
  · exact ⟨[], (List.append_nil _).symm, hb, by simp⟩

theorem lineComment_longest (b t r : Str) (hb : ∀ c ∈ b, c ≠ '\r' ∧ c ≠ '\n')
    (ht : t = [] ∨ t = c% "\r" ∨ t = c% "\n" ∨ t = c% "\r\n") :
    b.length + t.length ≤ (lineComment (b ++ (t ++ r))).1.length := by
  have hb' : ∀ c ∈ b, notNl c = true := by
    intro c hc; simpa [notNl] using hb c hc
  have h1 : (b ++ (t ++ r)).takeWhile notNl = b ++ (t ++ r).takeWhile notNl :=
    List.takeWhile_append_of_pos hb'
  have h2 : (b ++ (t ++ r)).dropWhile notNl = (t ++ r).dropWhile notNl :=
    List.dropWhile_append_of_pos hb'
  unfold lineComment
  change _ ≤ (match (b ++ (t ++ r)).dropWhile notNl with
    | '\r' :: '\n' :: r' => ((b ++ (t ++ r)).takeWhile notNl ++ c% "\r\n", r')
    | '\r' :: r' => ((b ++ (t ++ r)).takeWhile notNl ++ c% "\r", r')
    | '\n' :: r' => ((b ++ (t ++ r)).takeWhile notNl ++ c% "\n", r')
    | r' => ((b ++ (t ++ r)).takeWhile notNl, r')).1.length
  rw [h1, h2]
  rcases ht with rfl | rfl | rfl | rfl
  · split <;> simp <;> omega
  · have : (c% "\r" ++ r).dropWhile notNl = '\r' :: r := by simp [notNl]
    rw [this]
    split
    · simp
    · simp
    · simp
    · rename_i h _; exact absurd rfl (h _)
  · have : (c% "\n" ++ r).dropWhile notNl = '\n' :: r := by simp [notNl]
    rw [this]; simp
  · have : (c% "\r\n" ++ r).dropWhile notNl = '\r' :: '\n' :: r := by simp [notNl]
    rw [this]; simp

/-! ## Numbers -/

theorem exponent_matches (s e r : Str) (h : exponent s = some (e, r)) : Expo e := by
  unfold exponent at h
  split at h
  · rename_i s'
    split at h
    · simp at h
    · rename_i hne
      simp only [Option.some.injEq, Prod.mk.injEq] at h
      obtain ⟨rfl, rfl⟩ := h
      refine .mk _ _ ?_ ⟨?_, fun c hc => takeWhile_mem hc⟩
      · unfold optSign; split <;> simp
      · intro h'; rw [h'] at hne; simp at hne
  · simp at h

theorem digit_head {ds : Str} (h : Digits ds) : ∃ d t, ds = d :: t ∧ isDigit d = true := by
  obtain ⟨h1, h2⟩ := h
  cases ds with
  | nil => exact absurd rfl h1
  | cons d t => exact ⟨d, t, rfl, h2 d (by simp)⟩

theorem isDigit_ne {c d : Char} (h : isDigit c = true) (hd : isDigit d = false) : c ≠ d := by
  rintro rfl; rw [h] at hd; simp at hd

theorem optSign_digit (d : Char) (t : Str) (h : isDigit d = true) : optSign (d :: t) = ([], d :: t) := by
  have h1 : d ≠ '+' := isDigit_ne h (by decide)
  have h2 : d ≠ '-' := isDigit_ne h (by decide)
  unfold optSign
  split
  · rename_i h'; injection h' with h' _; exact absurd h' h1
  · rename_i h'; injection h' with h' _; exact absurd h' h2
  · rfl

theorem exponent_longest (e r : Str) (h : Expo e) :
    ∃ E R, exponent (e ++ r) = some (E, R) ∧ e.length ≤ E.length := by
  obtain ⟨sign, ds, hs, hd⟩ := h
  have hos : optSign (sign ++ (ds ++ r)) = (sign, ds ++ r) := by
    rcases hs with rfl | rfl | rfl
    · obtain ⟨d, t, rfl, hd'⟩ := digit_head hd
      exact optSign_digit _ _ hd'
    · rfl
    · rfl
  have hl := takeWhile_longest isDigit ds r _ rfl hd.2
  have hne : ((ds ++ r).takeWhile isDigit).isEmpty = false := by
    rw [List.isEmpty_eq_false_iff_exists_mem]
    obtain ⟨d, t, rfl, hd'⟩ := digit_head hd
    exact ⟨d, by simp [hd']⟩
  refine ⟨'E' :: sign ++ (ds ++ r).takeWhile isDigit, (ds ++ r).dropWhile isDigit, ?_, ?_⟩
  · show exponent ('E' :: (sign ++ ds ++ r)) = _
    rw [List.append_assoc, exponent, hos, hne]
    rfl
  · simp; omega

theorem mantissa_dot (ds r : Str) (h : ∀ c ∈ ds, isDigit c = true) :
    mantissa (ds ++ '.' :: r) = (.dec, ds ++ '.' :: r.takeWhile isDigit, r.dropWhile isDigit) := by
  obtain ⟨h1, h2⟩ := takeWhile_stop isDigit ds r '.' h (by decide)
  unfold mantissa
  rw [h1, h2]
  rfl

theorem mantissa_nodot (ds r : Str) (c : Char) (h : ∀ c ∈ ds, isDigit c = true)
    (hc : isDigit c = false) (hd : c ≠ '.') : mantissa (ds ++ c :: r) = (.int, ds, c :: r) := by
  obtain ⟨h1, h2⟩ := takeWhile_stop isDigit ds r c h hc
  unfold mantissa
  rw [h1, h2]
  split
  · rename_i h'; injection h' with h' _; exact absurd h' hd
  · rfl

theorem mantissa_matches (s : Str) (c : Char) (h : isDigit c = true) :
    (mantissa (c :: s)).1 = .int ∧ Digits (mantissa (c :: s)).2.1 ∨
    (mantissa (c :: s)).1 = .dec ∧ ∃ ds fs, (mantissa (c :: s)).2.1 = ds ++ '.' :: fs ∧ Digits ds ∧
      ∀ c ∈ fs, isDigit c = true := by
  have hd : Digits ((c :: s).takeWhile isDigit) :=
    ⟨by simp [h], fun c hc => takeWhile_mem hc⟩
  unfold mantissa
  split
  · right
    exact ⟨rfl, _, _, rfl, hd, fun c hc => takeWhile_mem hc⟩
  · left; exact ⟨rfl, hd⟩

theorem lexNum_matches (s : Str) (c : Char) (h : isDigit c = true) :
    Matches (lexNum (c :: s)).1.kind (lexNum (c :: s)).1.text := by
  unfold lexNum
  split
  · rename_i e r he
    have he := exponent_matches _ _ _ he
    rcases mantissa_matches s c h with ⟨_, h2⟩ | ⟨_, ds, fs, h2, h3, h4⟩
    · exact .dbl1 _ _ h2 he
    · rw [h2]; exact .dbl2 _ _ _ h3 h4 he
  · rcases mantissa_matches s c h with ⟨h1, h2⟩ | ⟨h1, ds, fs, h2, h3, h4⟩
    · rw [h1]; exact .int _ h2
    · rw [h1, h2]; exact .dec1 _ _ h3 h4

theorem lexNum_ge_mantissa (s : Str) : (mantissa s).2.1.length ≤ (lexNum s).1.text.length ∧
    (((lexNum s).1.kind = (mantissa s).1 ∧ (lexNum s).1.text = (mantissa s).2.1) ∨
      (mantissa s).2.1.length < (lexNum s).1.text.length) := by
  unfold lexNum
  split
  · rename_i e r he
    obtain ⟨sign, ds, _, _⟩ := exponent_matches _ _ _ he
    simp
  · simp

theorem mantissa_ge (ds r : Str) (h : ∀ c ∈ ds, isDigit c = true) :
    ds.length < (mantissa (ds ++ r)).2.1.length ∨
    (ds.length = (mantissa (ds ++ r)).2.1.length ∧ (mantissa (ds ++ r)).1 = .int) := by
  have := takeWhile_longest isDigit ds r _ rfl h
  unfold mantissa
  split
  · left; simp; omega
  · simp only [and_true]; omega

/-- A number rule never beats `lexNum`. -/
theorem lexNum_best (k : Kind) (w r s : Str) (h : w ++ r = s) (hm : Matches k w)
    (hk : k = .int ∨ k = .dec ∨ k = .dbl) (c : Char) (t : Str) (hs : s = c :: t)
    (hc : isDigit c = true) :
    w.length < (lexNum s).1.text.length ∨
      (w.length = (lexNum s).1.text.length ∧ rank (lexNum s).1.kind ≤ rank k) := by
  have hdot : c ≠ '.' := isDigit_ne hc (by decide)
  cases hm <;> simp at hk
  case int hd =>
    obtain ⟨h1, h2⟩ := lexNum_ge_mantissa s
    have h3 := mantissa_ge w r hd.2
    rw [h] at h3
    rcases h3 with h3 | ⟨h3, h4⟩
    · left; omega
    · rcases h2 with ⟨h2, _⟩ | h2
      · rw [h2, h4]; omega
      · left; omega
  case dec1 ds fs hd hf =>
    obtain ⟨h1, h2⟩ := lexNum_ge_mantissa s
    have hm := mantissa_dot ds (fs ++ r) hd.2
    have h' : ds ++ '.' :: (fs ++ r) = s := by rw [← h]; simp
    rw [h'] at hm
    have hl := takeWhile_longest isDigit fs r _ rfl hf
    rcases h2 with ⟨h2, h3⟩ | h2
    · rw [h2, h3, hm]
      simp; omega
    · left; rw [hm] at h2; simp at h2 ⊢; omega
  case dec2 fs hf =>
    rw [hs, List.cons_append] at h
    injection h with h _; exact absurd h.symm hdot
  case dbl1 ds e hd he =>
    obtain ⟨sign, es, hsg, hes⟩ := he
    have hm := mantissa_nodot ds (sign ++ es ++ r) 'E' hd.2 (by decide) (by decide)
    have h' : ds ++ 'E' :: (sign ++ es ++ r) = s := by rw [← h]; simp
    rw [h'] at hm
    obtain ⟨E, R, h1, h2⟩ := exponent_longest _ r (Expo.mk sign es hsg hes)
    simp only [List.cons_append] at h1
    unfold lexNum
    rw [hm]
    simp only [h1]
    simp [rank]; simp at h2; omega
  case dbl2 ds fs e hd hf he =>
    obtain ⟨sign, es, hsg, hes⟩ := he
    have hm := mantissa_dot ds (fs ++ ('E' :: (sign ++ es ++ r))) hd.2
    obtain ⟨ht, hdr⟩ := takeWhile_stop isDigit fs (sign ++ es ++ r) 'E' hf (by decide)
    rw [ht, hdr] at hm
    have h' : ds ++ '.' :: (fs ++ 'E' :: (sign ++ es ++ r)) = s := by rw [← h]; simp
    rw [h'] at hm
    obtain ⟨E, R, h1, h2⟩ := exponent_longest _ r (Expo.mk sign es hsg hes)
    simp only [List.cons_append] at h1
    unfold lexNum
    rw [hm]
    simp only [h1]
    simp [rank]; simp at h2; omega
  case dbl3 fs e hf he =>
    rw [hs, List.cons_append] at h
    injection h with h _; exact absurd h.symm hdot

/-! ## Character classes -/

theorem isWs_cases {c : Char} (h : isWs c = true) : c = ' ' ∨ c = '\r' ∨ c = '\n' ∨ c = '\t' := by
  simp only [isWs, Bool.or_eq_true, beq_iff_eq] at h
  rcases h with ((h | h) | h) | h <;> simp [h]

theorem idStart_not_ws {c : Char} (h : isIdStart c = true) : isWs c = false := by
  cases hw : isWs c with
  | false => rfl
  | true => rcases isWs_cases hw with rfl | rfl | rfl | rfl <;> exact absurd h (by decide)

theorem digit_not_ws {c : Char} (h : isDigit c = true) : isWs c = false := by
  cases hw : isWs c with
  | false => rfl
  | true => rcases isWs_cases hw with rfl | rfl | rfl | rfl <;> exact absurd h (by decide)

theorem digit_not_idStart {c : Char} (h : isDigit c = true) : isIdStart c = false := by
  simp only [isDigit, Bool.and_eq_true, decide_eq_true_eq] at h
  have : c ≠ '_' := by rintro rfl; revert h; decide
  simp [isIdStart, isLetter, this]
  omega

theorem lexOne_ws {c : Char} (s : Str) (h : isWs c = true) :
    lexOne c s = (⟨.ws, (c :: s).takeWhile isWs⟩, (c :: s).dropWhile isWs) := by
  unfold lexOne
  rw [if_pos h]

theorem lexOne_id {c : Char} (s : Str) (h : isIdStart c = true) : lexOne c s = lexWord (c :: s) := by
  unfold lexOne
  rw [if_neg (by simp [idStart_not_ws h]), if_pos h]

theorem lexOne_digit {c : Char} (s : Str) (h : isDigit c = true) :
    lexOne c s = lexNumber (c :: s) := by
  unfold lexOne
  rw [if_neg (by simp [digit_not_ws h]), if_neg (by simp [digit_not_idStart h]), if_pos h]

/-! ## The chosen token matches its rule -/

theorem isKeyword_matches {w : Str} (h : isKeyword w = true) : Matches .kw w := by
  simp only [isKeyword, Bool.or_eq_true, List.contains_iff_mem] at h
  rcases h with (h | h) | h
  · exact .kwUpper _ h
  · rw [List.mem_map] at h
    obtain ⟨k, hk, rfl⟩ := h
    exact .kwLower _ hk
  · exact .kwOnly _ h

theorem wordTok_matches (c : Char) (s : Str) (h : isIdStart c = true) :
    Matches (wordTok (c :: s)).1.kind (wordTok (c :: s)).1.text := by
  unfold wordTok
  dsimp only
  split
  · rename_i hk; exact isKeyword_matches hk
  · rw [List.takeWhile_cons, if_pos (isIdStart_isIdChar h)]
    exact .ident _ _ h (fun d hd => takeWhile_mem hd)

theorem lexSym_matches (c : Char) (s : Str) :
    Matches (lexSym c s).1.kind (lexSym c s).1.text := by
  have one : Matches (if oneSyms.contains c then Kind.sym else .unrec) [c] := by
    split
    · rename_i h; exact .sym1 _ (by simpa using h)
    · exact .unrec _
  unfold lexSym
  split
  · split
    · rename_i h; exact .sym2 _ (by simpa using h)
    · exact one
  · exact one

theorem lexQuoted_matches (k : Kind) (q : Char) (s : Str)
    (h : ∀ b, QBody q b → Matches k (q :: (b ++ [q]))) :
    Matches (lexQuoted k q s).1.kind (lexQuoted k q s).1.text := by
  unfold lexQuoted
  split
  · rename_i h'
    obtain ⟨b', rfl, hb⟩ := quotedBody_matches _ _ _ _ h'
    exact h _ hb
  · exact .unrec _

theorem lexOne_matches (c : Char) (s : Str) :
    Matches (lexOne c s).1.kind (lexOne c s).1.text := by
  unfold lexOne
  split
  · rename_i h
    exact .ws _ (by simp [h]) (fun d hd => takeWhile_mem hd)
  split
  · rename_i h
    have hw := wordTok_matches c s h
    unfold lexWord
    split
    · rename_i h'; injection h' with h1 h2; subst h1 h2
      split
      · rename_i h'
        obtain ⟨b', rfl, hb⟩ := quotedBody_matches _ _ _ _ h'
        exact .ustr _ hb
      · exact hw
    · rename_i h'; injection h' with h1 h2; subst h1 h2
      split
      · rename_i h'
        obtain ⟨b', rfl, hb⟩ := binaryBody_matches _ _ _ h'
        exact .bin _ hb
      · exact hw
    · exact hw
  split
  · rename_i h
    have hn := lexNum_matches s c h
    unfold lexNumber
    split
    · rename_i hl
      rw [List.takeWhile_cons, if_pos (isDigit_isIdChar h)] at hl ⊢
      refine .digitIdent _ _ h ?_ (fun d hd => takeWhile_mem hd)
      intro hnil
      rw [hnil] at hl
      have := List.length_pos_iff.mpr (lexNum_ne_nil c s h)
      simp only [List.length_cons, List.length_nil] at hl; omega
    · exact hn
  split
  · unfold lexDot
    dsimp only
    split
    · exact .sym1 _ (by decide)
    · rename_i hne
      have hd : Digits (s.takeWhile isDigit) :=
        ⟨by intro h; rw [h] at hne; simp at hne, fun d hd => takeWhile_mem hd⟩
      split
      · rename_i he
        exact .dbl3 _ _ hd (exponent_matches _ _ _ he)
      · exact .dec2 _ hd
  split
  · exact lexQuoted_matches _ _ _ .str
  split
  · exact lexQuoted_matches _ _ _ .quoted
  split
  · exact lexQuoted_matches _ _ _ .backquoted
  split
  · split
    · obtain ⟨b, t, h1, h2, h3⟩ := lineComment_matches _
      rw [h1]
      exact .lineComment _ _ h2 h3
    · exact lexSym_matches _ _
  split
  · split
    · split
      · rename_i h'
        obtain ⟨b', rfl, hb⟩ := commentBody_matches _ _ _ h'
        exact .blockComment _ hb
      · exact lexSym_matches _ _
    · exact lexSym_matches _ _
  · exact lexSym_matches _ _

/-! ## No other match is better -/

/-- `w`, a match of class `k`, does not beat the token `t`. -/
def NotBetter (k : Kind) (w : Str) (t : Tok) : Prop :=
  w.length < t.text.length ∨ (w.length = t.text.length ∧ rank t.kind ≤ rank k)

theorem lexWord_best (c : Char) (s : Str) (k : Kind) (w r : Str) (happ : w ++ r = c :: s)
    (hw : ∀ d ∈ w, isIdChar d = true) (hk : k = .kw ∧ isKeyword w = true ∨ rank Kind.ident ≤ rank k) :
    NotBetter k w (lexWord (c :: s)).1 := by
  have hword : NotBetter k w (wordTok (c :: s)).1 := by
    have hl := takeWhile_longest isIdChar w r _ happ hw
    unfold wordTok NotBetter
    dsimp only
    rcases Nat.lt_or_ge w.length ((c :: s).takeWhile isIdChar).length with h | h
    · exact .inl h
    · right
      refine ⟨by omega, ?_⟩
      have heq : (c :: s).takeWhile isIdChar = w := by
        rw [← happ, List.takeWhile_append_of_pos hw] at h ⊢
        have : (r.takeWhile isIdChar).length = 0 := by rw [List.length_append] at h; omega
        rw [List.eq_nil_of_length_eq_zero this, List.append_nil]
      rw [heq]
      rcases hk with ⟨rfl, hk⟩ | hk
      · simp [hk]
      · split
        · simp [rank]
        · exact hk
  have short : ∀ (d : Char) (s' : Str) (t : Tok), c :: s = c :: d :: s' → isIdChar d = false →
      1 < t.text.length → NotBetter k w t := by
    intro d s' t h hd ht
    left
    rw [h] at happ
    cases w with
    | nil => simp; omega
    | cons x w =>
      cases w with
      | nil => simpa using ht
      | cons y w =>
        simp at happ
        have := hw y (by simp)
        rw [happ.2.1, hd] at this; simp at this
  unfold lexWord
  split
  · rename_i h'; injection h' with h1 h2
    subst h1
    split
    · exact short _ _ _ (by rw [h2]) (by decide) (by simp)
    · exact hword
  · rename_i h'; injection h' with h1 h2
    subst h1
    split
    · exact short _ _ _ (by rw [h2]) (by decide) (by simp)
    · exact hword
  · exact hword

theorem keyword_chars : ∀ w, isKeyword w = true → (∃ c s, w = c :: s ∧ isIdStart c = true) ∧
    ∀ d ∈ w, isIdChar d = true := by
  have h1 : (keywords.all fun w => w.all isIdChar && (w.head?.map isIdStart) == some true) = true := by
    decide +kernel
  have h2 : ((keywords.map lower).all fun w => w.all isIdChar && (w.head?.map isIdStart) == some true)
      = true := by decide +kernel
  have h3 : (upperKeywords.all fun w => w.all isIdChar && (w.head?.map isIdStart) == some true)
      = true := by decide +kernel
  rw [List.all_eq_true] at h1 h2 h3
  intro w hw
  simp only [isKeyword, Bool.or_eq_true, List.contains_iff_mem] at hw
  have : (w.all isIdChar && (w.head?.map isIdStart) == some true) = true := by
    rcases hw with (h | h) | h
    · exact h1 _ h
    · exact h2 _ h
    · exact h3 _ h
  rw [Bool.and_eq_true, List.all_eq_true] at this
  obtain ⟨ha, hb⟩ := this
  cases w with
  | nil => simp at hb
  | cons c s => exact ⟨⟨c, s, rfl, by simpa using hb⟩, ha⟩

theorem sym_best (c : Char) (s w r : Str) (hm : Matches .sym w) (happ : w ++ r = c :: s) :
    NotBetter .sym w (lexSym c s).1 := by
  cases hm with
  | sym1 d hd =>
    simp at happ
    obtain ⟨rfl, rfl⟩ := happ
    have : oneSyms.contains d = true := by simpa using hd
    unfold lexSym NotBetter
    split
    · split
      · simp
      · simp [hd, rank]
    · simp [hd, rank]
  | sym2 _ hs =>
    have hlen : w.length = 2 := by
      simp only [twoSyms, List.mem_cons, List.not_mem_nil, or_false] at hs
      rcases hs with rfl | rfl | rfl | rfl | rfl | rfl | rfl | rfl | rfl <;> rfl
    match w, hlen with
    | [a, b], _ =>
      simp at happ
      obtain ⟨rfl, rfl⟩ := happ
      have : twoSyms.contains [a, b] = true := by simpa using hs
      unfold lexSym NotBetter
      simp [hs, rank]

theorem quoted_best (k : Kind) (q : Char) (s b r : Str) (hb : QBody q b)
    (happ : b ++ q :: r = s) : NotBetter k (q :: (b ++ [q])) (lexQuoted k q s).1 := by
  obtain ⟨B, R, h1, h2⟩ := quotedBody_longest q b r hb
  rw [happ] at h1
  unfold lexQuoted NotBetter
  rw [h1]
  simp
  omega

theorem unrec_best (w : Str) (t : Tok) (h : t.text ≠ []) (hw : w.length = 1) :
    NotBetter .unrec w t := by
  have := List.length_pos_iff.mpr h
  have hr : rank t.kind ≤ rank Kind.unrec := by cases t.kind <;> decide
  unfold NotBetter
  omega

theorem expo_head {e : Str} (h : Expo e) : ∃ t, e = 'E' :: t := by
  obtain ⟨sign, ds, hs, hd⟩ := h
  exact ⟨_, rfl⟩

theorem expo_pos {e : Str} (h : Expo e) : 0 < e.length := by
  obtain ⟨t, rfl⟩ := expo_head h; simp

theorem lexNum_kind (s : Str) :
    (lexNum s).1.kind = .int ∨ (lexNum s).1.kind = .dec ∨ (lexNum s).1.kind = .dbl := by
  unfold lexNum
  split
  · simp
  · unfold mantissa
    split <;> simp

theorem lexOne_sym (d : Char) (r : Str) (h : d ∈ oneSyms ∨ d = '!') (h1 : d ≠ '.') (h2 : d ≠ '-')
    (h3 : d ≠ '/') : lexOne d r = lexSym d r := by
  simp only [oneSyms, List.mem_cons, List.not_mem_nil, or_false] at h
  rcases h with (h | h | h | h | h | h | h | h | h | h | h | h | h | h | h | h | h | h | h | h | h) | h
    <;> subst h <;> first | rfl | contradiction

theorem isWs_false_of {c : Char} (h : c ∉ [' ', '\r', '\n', '\t']) : isWs c = false := by
  simp at h; simp [isWs, h]

theorem lexOne_best (c : Char) (s : Str) (k : Kind) (w r : Str) (happ : w ++ r = c :: s)
    (hm : Matches k w) : NotBetter k w (lexOne c s).1 := by
  have key : ∀ w, isKeyword w = true → w ++ r = c :: s → NotBetter .kw w (lexOne c s).1 := by
    intro w hk happ
    obtain ⟨⟨d, t, rfl, hd⟩, hall⟩ := keyword_chars w hk
    simp at happ
    obtain ⟨rfl, rfl⟩ := happ
    rw [lexOne_id _ hd]
    exact lexWord_best _ _ _ _ r (by simp) hall (.inl ⟨rfl, hk⟩)
  have num : ∀ w, Matches k w → (k = .int ∨ k = .dec ∨ k = .dbl) → w ++ r = c :: s →
      isDigit c = true → NotBetter k w (lexOne c s).1 := by
    intro w hm hk happ hc
    have := lexNum_best k w r _ happ hm hk c s rfl hc
    rw [lexOne_digit _ hc, lexNumber]
    split
    · left; simp only; omega
    · exact this
  have digs : ∀ ds t, Digits ds → ds ++ t = c :: s → isDigit c = true := by
    intro ds t hd h
    obtain ⟨d, ds', rfl, hd'⟩ := digit_head hd
    simp at h
    rw [← h.1]; exact hd'
  cases hm with
  | kwUpper _ hk => exact key _ (by simp [isKeyword, hk]) happ
  | kwLower k hk =>
    refine key _ ?_ happ
    have : lower k ∈ keywords.map lower := List.mem_map_of_mem hk
    simp only [isKeyword, Bool.or_eq_true, List.contains_iff_mem]
    exact .inl (.inr this)
  | kwOnly _ hk => exact key _ (by simp [isKeyword, hk]) happ
  | sym1 d hd =>
    simp at happ
    obtain ⟨rfl, rfl⟩ := happ
    have hs := sym_best d r [d] r (.sym1 _ hd) rfl
    by_cases h1 : d = '.'
    · subst h1
      show NotBetter .sym _ (lexDot r).1
      unfold lexDot NotBetter
      dsimp only
      split
      · simp [rank]
      · rename_i h
        have : 0 < (r.takeWhile isDigit).length := by
          rw [List.length_pos_iff]; intro h'; rw [h'] at h; simp at h
        left
        split <;> simp <;> omega
    by_cases h2 : d = '-'
    · subst h2
      show NotBetter .sym _ (match (generalizing := false) r with
        | '-' :: r => ((⟨.comment, '-' :: '-' :: (lineComment r).1⟩, (lineComment r).2) : Tok × Str)
        | _ => lexSym '-' r).1
      split
      · left; simp
      · exact hs
    by_cases h3 : d = '/'
    · subst h3
      show NotBetter .sym _ (match (generalizing := false) r with
        | '*' :: r' => match commentBody r' with
          | some (b, r') => ((⟨.comment, '/' :: '*' :: b⟩, r') : Tok × Str)
          | none => lexSym '/' r
        | _ => lexSym '/' r).1
      split
      · split
        · left; simp
        · exact hs
      · exact hs
    rw [lexOne_sym d r (.inl hd) h1 h2 h3]; exact hs
  | sym2 _ hs =>
    have hb := sym_best c s w r (.sym2 _ hs) happ
    simp only [twoSyms, List.mem_cons, List.not_mem_nil, or_false] at hs
    rcases hs with rfl | rfl | rfl | rfl | rfl | rfl | rfl | rfl | rfl <;>
    · simp at happ
      obtain ⟨rfl, rfl⟩ := happ
      exact hb
  | str b hb =>
    simp at happ
    obtain ⟨rfl, rfl⟩ := happ
    exact quoted_best .str _ _ b r hb rfl
  | ustr b hb =>
    simp at happ
    obtain ⟨rfl, rfl⟩ := happ
    obtain ⟨B, R, h1, h2⟩ := quotedBody_longest '\'' b r hb
    rw [lexOne_id _ (by decide), lexWord]
    unfold NotBetter
    rw [h1]
    simp
    omega
  | bin b hb =>
    simp at happ
    obtain ⟨rfl, rfl⟩ := happ
    rw [lexOne_id _ (by decide), lexWord]
    unfold NotBetter
    rw [binaryBody_longest b r hb]
    simp
  | int _ hd => exact num _ (.int _ hd) (by simp) happ (digs _ _ hd happ)
  | dec1 ds fs hd hf =>
    exact num _ (.dec1 _ _ hd hf) (by simp) happ
      (digs ds ('.' :: fs ++ r) hd (by rw [← happ]; simp))
  | dec2 fs hf =>
    simp at happ
    obtain ⟨rfl, rfl⟩ := happ
    have hl := takeWhile_longest isDigit fs r _ rfl hf.2
    have hne := List.length_pos_iff.mpr hf.1
    show NotBetter .dec _ (lexDot (fs ++ r)).1
    unfold lexDot NotBetter
    dsimp only
    rw [if_neg (by intro h; rw [List.isEmpty_iff] at h; rw [h] at hl; simp at hl; exact hf.1 hl)]
    split
    · rename_i he
      have := expo_pos (exponent_matches _ _ _ he)
      left; simp; omega
    · simp [rank]; omega
  | dbl1 ds e hd he =>
    exact num _ (.dbl1 _ _ hd he) (by simp) happ (digs ds (e ++ r) hd (by rw [← happ]; simp))
  | dbl2 ds fs e hd hf he =>
    exact num _ (.dbl2 _ _ _ hd hf he) (by simp) happ
      (digs ds ('.' :: fs ++ e ++ r) hd (by rw [← happ]; simp))
  | dbl3 fs e hf he =>
    simp at happ
    obtain ⟨rfl, rfl⟩ := happ
    have htd : (fs ++ (e ++ r)).takeWhile isDigit = fs ∧
        (fs ++ (e ++ r)).dropWhile isDigit = e ++ r := by
      obtain ⟨t, rfl⟩ := expo_head he
      exact takeWhile_stop isDigit fs (t ++ r) 'E' hf.2 (by decide)
    obtain ⟨E, R, h1, h2⟩ := exponent_longest e r he
    show NotBetter .dbl _ (lexDot (fs ++ (e ++ r))).1
    unfold lexDot NotBetter
    dsimp only
    rw [htd.1, htd.2, h1, if_neg (by simpa using hf.1)]
    simp [rank]; omega
  | ident d t hd ht =>
    simp at happ
    obtain ⟨rfl, rfl⟩ := happ
    rw [lexOne_id _ hd]
    exact lexWord_best _ _ _ _ r (by simp)
      (by simpa using ⟨isIdStart_isIdChar hd, ht⟩) (.inr (by decide))
  | digitIdent d t hd hne ht =>
    simp at happ
    obtain ⟨rfl, rfl⟩ := happ
    have hl := takeWhile_longest isIdChar (d :: t) r _ rfl (by simpa using ⟨isDigit_isIdChar hd, ht⟩)
    rw [lexOne_digit _ hd, lexNumber]
    split
    · unfold NotBetter; simp at hl ⊢; omega
    · have : rank (lexNum (d :: (t ++ r))).1.kind ≤ rank Kind.digitIdent := by
        rcases lexNum_kind (d :: (t ++ r)) with h | h | h <;> rw [h] <;> decide
      unfold NotBetter; simp at *; omega
  | quoted b hb =>
    simp at happ
    obtain ⟨rfl, rfl⟩ := happ
    exact quoted_best .quoted _ _ b r hb rfl
  | backquoted b hb =>
    simp at happ
    obtain ⟨rfl, rfl⟩ := happ
    exact quoted_best .backquoted _ _ b r hb rfl
  | lineComment b t hb ht =>
    simp at happ
    obtain ⟨rfl, rfl⟩ := happ
    have := lineComment_longest b t r hb ht
    have h : lexOne '-' ('-' :: (b ++ (t ++ r))) = (⟨.comment, '-' :: '-' :: (lineComment (b ++ (t ++ r))).1⟩,
      (lineComment (b ++ (t ++ r))).2) := rfl
    rw [h]; unfold NotBetter; simp; omega
  | blockComment b hb =>
    simp at happ
    obtain ⟨rfl, rfl⟩ := happ
    have := commentBody_longest b r hb
    have h : lexOne '/' ('*' :: (b ++ '*' :: '/' :: r)) = (⟨.comment, '/' :: '*' :: (b ++ c% "*/")⟩, r) := by
      show (match commentBody (b ++ '*' :: '/' :: r) with
        | some (b, r') => ((⟨.comment, '/' :: '*' :: b⟩, r') : Tok × Str)
        | none => _) = _
      rw [this]
    rw [h]; unfold NotBetter; simp
  | ws _ hne hall =>
    have hc : isWs c = true := by
      cases w with
      | nil => exact absurd rfl hne
      | cons x w => simp at happ; rw [← happ.1]; exact hall x (by simp)
    have := takeWhile_longest isWs w r _ happ hall
    rw [lexOne_ws _ hc]; unfold NotBetter; simp only; omega
  | unrec d => exact unrec_best _ _ (lexOne_ne_nil c s) rfl

end Treeno
