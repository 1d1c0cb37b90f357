import Verif.Lemmas.LexMunch
import Verif.Lemmas.LexText
import Verif.Spec.Gaps
/-!
# Lexing tokens that stand apart
-/
namespace Treeno
open Spec

theorem wsChar {c : Char} (h : c = ' ' ∨ c = '\t' ∨ c = '\n' ∨ c = '\r') : isWs c = true := by
  rcases h with rfl | rfl | rfl | rfl <;> rfl
theorem charWs {c : Char} (h : isWs c = true) : c = ' ' ∨ c = '\t' ∨ c = '\n' ∨ c = '\r' := by
  rcases isWs_cases h with rfl | rfl | rfl | rfl <;> simp

/-- A longest match is what `lexOne` finds. -/
theorem lexOne_of_longest {t : Tok} {r : Str} {c : Char} {s : Str} (e : t.text ++ r = c :: s)
    (hm : Matches t.kind t.text)
    (hb : ∀ k w rest, w ++ rest = c :: s → Matches k w →
      w.length < t.text.length ∨ (w.length = t.text.length ∧ rank t.kind ≤ rank k)) :
    lexOne c s = (t, r) := by
  have e1 := lexOne_append c s
  have a1 := hb _ _ _ e1 (lexOne_matches c s)
  have a2 : _ ∨ _ := lexOne_best c s _ _ _ e hm
  have hl : (lexOne c s).1.text.length = t.text.length := by omega
  have hr : rank t.kind = rank (lexOne c s).1.kind := by omega
  obtain ⟨ht, h2⟩ := List.append_inj (e1.trans e.symm) hl
  have hk : t.kind = (lexOne c s).1.kind := by
    cases h1 : t.kind <;> cases h2 : (lexOne c s).1.kind <;> first | rfl | (rw [h1, h2] at hr; exact absurd hr (by decide))
  refine Prod.ext ?_ h2
  obtain ⟨k, x⟩ := t
  cases h1 : (lexOne c s).1 with
  | mk k' x' =>
    rw [h1] at hk ht
    simp only at hk ht
    rw [hk, ht]

theorem matches_ne_nil {k : Kind} {w : Str} (h : Matches k w) : w ≠ [] := by
  cases h with
  | kwUpper _ h => exact fun e => absurd (show [] ∈ keywords from e ▸ h) (by decide +kernel)
  | kwLower k h =>
    intro e
    have : k = [] := by simpa [lower] using e
    exact absurd (show [] ∈ keywords from this ▸ h) (by decide +kernel)
  | kwOnly _ h => exact fun e => absurd (show [] ∈ upperKeywords from e ▸ h) (by decide +kernel)
  | sym1 => nofun
  | sym2 _ h => exact fun e => absurd (show [] ∈ twoSyms from e ▸ h) (by decide +kernel)
  | int _ h => exact h.1
  | dec1 => simp
  | dbl1 ds e h => simp [h.1]
  | dbl2 => simp
  | ws _ h => exact h
  | _ => simp

/-- Characters of words and numbers without exponents. -/
def plain (c : Char) : Bool := isIdChar c || c == '.'
/-- And with them. -/
def flat (c : Char) : Bool := plain c || c == '+' || c == '-'

/-- Words and numbers: a minus sign stands before a digit. -/
def Flat (w : Str) : Prop :=
  (∀ c ∈ w, flat c = true) ∧ ∀ x y, w = x ++ '-' :: y → ∃ d z, y = d :: z ∧ isDigit d = true

theorem digit_id {c : Char} (h : isDigit c = true) : isIdChar c = true := by simp [isIdChar, h]
theorem id_plain {c : Char} (h : isIdChar c = true) : plain c = true := by simp [plain, h]
theorem digit_plain {c : Char} (h : isDigit c = true) : plain c = true := id_plain (digit_id h)
theorem plain_flat {c : Char} (h : plain c = true) : flat c = true := by simp [flat, h]

theorem Flat.plain {w : Str} (h : ∀ c ∈ w, plain c = true) : Flat w :=
  ⟨fun c hc => plain_flat (h c hc), fun x y e => by
    have : Treeno.plain '-' = true := h '-' (by rw [e]; simp)
    exact absurd this (by decide)⟩

theorem Flat.cons {c : Char} {w : Str} (hc : Treeno.plain c = true) (h : Flat w) : Flat (c :: w) := by
  refine ⟨fun d hd => ?_, fun x y e => ?_⟩
  · rcases List.mem_cons.mp hd with rfl | hd
    · exact plain_flat hc
    · exact h.1 d hd
  · cases x with
    | nil =>
      cases e
      exact absurd hc (by decide)
    | cons a x =>
      cases e
      exact h.2 x y rfl

theorem Flat.append {a w : Str} (ha : ∀ c ∈ a, Treeno.plain c = true) (h : Flat w) : Flat (a ++ w) := by
  induction a with
  | nil => exact h
  | cons c a ih => exact .cons (ha c List.mem_cons_self) (ih fun d hd => ha d (List.mem_cons_of_mem _ hd))

theorem expo_flat {e : Str} (h : Expo e) : Flat e := by
  cases h with
  | mk sign ds hs hd =>
    have hp : ∀ c ∈ ds, plain c = true := fun c hc => digit_plain (hd.2 c hc)
    refine .cons (by decide) ?_
    rcases hs with rfl | rfl | rfl
    · exact .plain hp
    · have hf : Flat ds := .plain hp
      refine ⟨fun c hc => ?_, fun x y e => ?_⟩
      · rcases List.mem_cons.mp hc with rfl | hc
        · rfl
        · exact hf.1 c hc
      · cases x with
        | nil => cases e
        | cons a x => cases e; exact hf.2 x y rfl
    · have hf : Flat ds := .plain hp
      refine ⟨fun c hc => ?_, fun x y e => ?_⟩
      · rcases List.mem_cons.mp hc with rfl | hc
        · rfl
        · exact hf.1 c hc
      · cases x with
        | nil =>
          cases e
          obtain ⟨d, t, rfl, hd'⟩ := digit_head hd
          exact ⟨d, t, rfl, hd'⟩
        | cons a x => cases e; exact hf.2 x y rfl

/-- What a rule can match, by how its text looks. -/
inductive Look : Kind → Str → Prop
  | flat {k w} : Flat w → Look k w
  | sym2 {w} : w ∈ twoSyms → Look .sym w
  | one {k c} : c ∈ oneSyms ∨ k = .unrec → Look k [c]
  | str {b} : QBody '\'' b → Look .str ('\'' :: (b ++ ['\'']))
  | ustr {b} : QBody '\'' b → Look .ustr ('U' :: '&' :: '\'' :: (b ++ ['\'']))
  | bin {b} : '\'' ∉ b → Look .bin ('X' :: '\'' :: (b ++ ['\'']))
  | quoted {b} : QBody '"' b → Look .quoted ('"' :: (b ++ ['"']))
  | backquoted {b} : QBody '`' b → Look .backquoted ('`' :: (b ++ ['`']))
  | line {x} : Look .comment ('-' :: '-' :: x)
  | block {b} : ¬ (c% "*/" <:+: b ++ c% "*") → Look .comment ('/' :: '*' :: (b ++ c% "*/"))
  | ws {w} : (∀ c ∈ w, isWs c = true) → Look .ws w

theorem kw_flat {w : Str} (h : isKeyword w = true) : Flat w :=
  .plain fun c hc => id_plain ((keyword_chars w h).2 c hc)

theorem start_id {c : Char} (h : isIdStart c = true) : isIdChar c = true := by
  simp only [isIdStart, Bool.or_eq_true] at h
  rcases h with h | h
  · simp [isIdChar, h]
  · simp only [isIdChar, Bool.or_eq_true]; exact .inr h

theorem look {k : Kind} {w : Str} (h : Matches k w) : Look k w := by
  have dg : ∀ {ds : Str}, (∀ c ∈ ds, isDigit c = true) → ∀ c ∈ ds, plain c = true := fun h c hc => digit_plain (h c hc)
  cases h with
  | kwUpper _ h => exact .flat (kw_flat (by simp [isKeyword, h]))
  | kwLower k h =>
    refine .flat (kw_flat ?_)
    have : lower k ∈ keywords.map lower := List.mem_map_of_mem h
    simp only [isKeyword, Bool.or_eq_true, List.contains_iff_mem]
    exact .inl (.inr this)
  | kwOnly _ h => exact .flat (kw_flat (by simp [isKeyword, h]))
  | sym1 _ h => exact .one (.inl h)
  | sym2 _ h => exact .sym2 h
  | str _ h => exact .str h
  | ustr _ h => exact .ustr h
  | bin _ h => exact .bin h
  | int _ h => exact .flat (.plain (dg h.2))
  | dec1 ds fs h h' => exact .flat (.append (dg h.2) (.cons rfl (.plain (dg h'))))
  | dec2 fs h => exact .flat (.cons rfl (.plain (dg h.2)))
  | dbl1 ds e h he => exact .flat (.append (dg h.2) (expo_flat he))
  | dbl2 ds fs e h h' he =>
    rw [List.append_assoc, List.cons_append]
    exact .flat (.append (dg h.2) (.cons rfl (.append (dg h') (expo_flat he))))
  | dbl3 fs e h he => exact .flat (.cons rfl (.append (dg h.2) (expo_flat he)))
  | ident c s h h' => exact .flat (.cons (id_plain (start_id h)) (.plain fun d hd => id_plain (h' d hd)))
  | digitIdent c s h _ h' => exact .flat (.cons (digit_plain h) (.plain fun d hd => id_plain (h' d hd)))
  | quoted _ h => exact .quoted h
  | backquoted _ h => exact .backquoted h
  | lineComment => exact .line
  | blockComment _ h => exact .block h
  | ws _ _ h => exact .ws h
  | unrec => exact .one (.inr rfl)

theorem qbody_chr {q c : Char} {s : Str} (h : QBody q (c :: s)) (hc : c ≠ q) : QBody q s := by
  generalize e : c :: s = x at h
  cases h with
  | nil => cases e
  | chr _ _ _ h => cases e; exact h
  | pair => cases e; exact absurd rfl hc
theorem qbody_pair {q d : Char} {s : Str} (h : QBody q (q :: d :: s)) : d = q ∧ QBody q s := by
  generalize e : q :: d :: s = x at h
  cases h with
  | nil => cases e
  | chr _ _ hc => cases e; exact absurd rfl hc
  | pair _ h => cases e; exact ⟨rfl, h⟩

/-- A quoted text followed by something else than the quote does not go on. -/
theorem quoted_ends {q : Char} {b x : Str} {d : Char} (h : QBody q b) (h' : QBody q (b ++ q :: d :: x)) : d = q := by
  induction h with
  | nil => exact (qbody_pair h').1
  | chr c b hc _ ih => exact ih (qbody_chr h' hc)
  | pair b _ ih => exact ih (qbody_pair h').2

/-- What may follow a token: nothing, white space or a comment. -/
def Apart (s : Str) : Prop :=
  s = [] ∨ (∃ c r, s = c :: r ∧ isWs c = true) ∨ (∃ r, s = '/' :: '*' :: r) ∨ ∃ r, s = '-' :: '-' :: r

theorem apart_head {s : Str} (h : Apart s) {c : Char} {r : Str} (e : s = c :: r) :
    isWs c = true ∨ (c = '/' ∧ ∃ x, r = '*' :: x) ∨ (c = '-' ∧ ∃ x, r = '-' :: x) := by
  subst e
  rcases h with h | ⟨c', r', h, hw⟩ | ⟨r', h⟩ | ⟨r', h⟩ <;> cases h
  · exact .inl hw
  · exact .inr (.inl ⟨rfl, _, rfl⟩)
  · exact .inr (.inr ⟨rfl, _, rfl⟩)

theorem ws_not_flat {c : Char} (h : isWs c = true) : flat c = false := by
  rcases isWs_cases h with rfl | rfl | rfl | rfl <;> rfl

/-- Between a quoted token and the text after it. -/
theorem quoted_apart {q : Char} {b b' x : Str} {d : Char} (h : QBody q b) (h' : QBody q b') (hd : d ≠ q)
    (e : q :: (b' ++ [q]) ++ d :: x = q :: (b ++ [q])) : False := by
  have e : b' ++ q :: d :: x = b ++ [q] := by simpa using e
  rcases List.eq_nil_or_concat (d :: x) with e' | ⟨z, l, e'⟩
  · cases e'
  · rw [List.concat_eq_append] at e'
    have e2 : (b' ++ q :: z) ++ [l] = b ++ [q] := by rw [← e, e']; simp
    obtain ⟨h1, h2⟩ := List.append_inj' e2 rfl
    cases h2
    cases z with
    | nil =>
      cases e'
      exact hd rfl
    | cons d' z =>
      cases e'
      exact hd (quoted_ends h' (h1 ▸ h))

theorem two_cases {w : Str} (h : w ∈ twoSyms) : w = c% "<>" ∨ w = c% "!=" ∨ w = c% "<=" ∨ w = c% ">=" ∨ w = c% "||" ∨
    w = c% "->" ∨ w = c% "=>" ∨ w = c% "{-" ∨ w = c% "-}" := by
  simpa [twoSyms] using h

/-- A visible token that begins with a quote is quoted. -/
theorem quote_tok {q : Char} (hq : q = '\'' ∨ q = '"' ∨ q = '`') {k : Kind} {w y z : Str} (h : Look k w) (hne : w ≠ [])
    (hu : k ≠ .unrec) (e : w ++ y = q :: z) : ∃ b, QBody q b ∧ w = q :: (b ++ [q]) := by
  cases w with
  | nil => exact absurd rfl hne
  | cons c w =>
    have hc : c = q := by injection e
    subst hc
    generalize hw : c :: w = x at h
    cases h with
    | flat hf =>
      have := hf.1 c (by rw [← hw]; simp)
      rcases hq with rfl | rfl | rfl <;> cases this
    | sym2 h =>
      rcases two_cases h with rfl | rfl | rfl | rfl | rfl | rfl | rfl | rfl | rfl <;> cases hw <;> simp at hq
    | one h =>
      cases hw
      rcases h with h | h
      · rcases hq with rfl | rfl | rfl <;> exact absurd h (by decide)
      · exact absurd h hu
    | str hb => cases hw; exact ⟨_, hb, rfl⟩
    | ustr => cases hw; simp at hq
    | bin => cases hw; simp at hq
    | quoted hb => cases hw; exact ⟨_, hb, rfl⟩
    | backquoted hb => cases hw; exact ⟨_, hb, rfl⟩
    | line => cases hw; simp at hq
    | block => cases hw; simp at hq
    | ws h =>
      have := h c (by rw [← hw]; simp)
      rcases hq with rfl | rfl | rfl <;> cases this

theorem apart_ne {s : Str} (h : Apart s) {c : Char} {r : Str} (e : s = c :: r) (q : Char)
    (hq : q = '\'' ∨ q = '"' ∨ q = '`' ∨ q = '&' ∨ q = '*') : c ≠ q := by
  rcases apart_head h e with h1 | ⟨rfl, _⟩ | ⟨rfl, _⟩
  · rcases isWs_cases h1 with rfl | rfl | rfl | rfl <;> rcases hq with rfl | rfl | rfl | rfl | rfl <;> decide
  · rcases hq with rfl | rfl | rfl | rfl | rfl <;> decide
  · rcases hq with rfl | rfl | rfl | rfl | rfl <;> decide

/-- A token that stands apart from what follows is still the longest match. -/
theorem apart_best {t : Tok} {r : Str} (hm : Matches t.kind t.text) (hv : t.visible = true) (hu : t.kind ≠ .unrec)
    (hr : Apart r) (hc : Clear t r) {k : Kind} {u rest : Str} {d : Char} (e : (d :: u) ++ rest = r)
    (h : Matches k (t.text ++ d :: u)) : False := by
  have hne := matches_ne_nil hm
  have hd := apart_head hr e.symm
  have hq := apart_ne hr e.symm
  have hl := look hm
  obtain ⟨tk, tx⟩ := t
  change Look tk tx at hl
  change tx ≠ [] at hne
  change tk ≠ .unrec at hu
  change Matches k (tx ++ d :: u) at h
  generalize hw : tx ++ d :: u = w at h
  have hcom : tk ≠ .comment ∧ tk ≠ .ws := by
    constructor <;> (intro e; rw [e] at hv; cases hv)
  cases look h with
  | flat hf =>
    have hdf : flat d = true := hf.1 d (by rw [← hw]; simp)
    rcases hd with h1 | ⟨rfl, _⟩ | ⟨rfl, x, h2⟩
    · rw [ws_not_flat h1] at hdf; cases hdf
    · cases hdf
    · obtain ⟨d', z, rfl, h3⟩ := hf.2 _ _ hw.symm
      cases h2
      cases h3
  | sym2 h2 =>
    have h3 : ∃ a b, w = [a, b] := by
      rcases two_cases h2 with rfl | rfl | rfl | rfl | rfl | rfl | rfl | rfl | rfl <;> exact ⟨_, _, rfl⟩
    obtain ⟨a, b, rfl⟩ := h3
    cases tx with
    | nil => exact hne rfl
    | cons x tx =>
      cases tx with
      | nil =>
        cases hw
        rcases hd with h1 | ⟨rfl, _⟩ | ⟨rfl, y, h4⟩
        · rcases two_cases h2 with h | h | h | h | h | h | h | h | h <;> cases h <;> cases h1
        · rcases two_cases h2 with h | h | h | h | h | h | h | h | h <;> cases h
        · have : a = '{' := by rcases two_cases h2 with h | h | h | h | h | h | h | h | h <;> cases h; rfl
          subst this
          refine hc (.inr rfl) ⟨y, ?_⟩
          rw [← e]
          show '-' :: '-' :: y = '-' :: rest
          rw [show rest = '-' :: y from h4]
      | cons y tx =>
        simp at hw
  | one =>
    cases tx with
    | nil => exact hne rfl
    | cons x tx => simp at hw
  | str hb =>
    obtain ⟨b', hb', rfl⟩ := quote_tok (.inl rfl) hl hne hu hw
    exact quoted_apart hb hb' (hq _ (by simp)) hw
  | ustr hb =>
    cases tx with
    | nil => exact hne rfl
    | cons x tx =>
      injection hw with h1 h2
      subst h1
      cases tx with
      | nil => injection h2 with h3; exact hq '&' (by simp) h3
      | cons y tx =>
        injection h2 with h3 h4
        subst h3
        generalize hx : 'U' :: '&' :: tx = x at hl
        cases hl with
        | flat hf => exact absurd (hf.1 '&' (by rw [← hx]; simp)) (by decide)
        | sym2 h => rcases two_cases h with rfl | rfl | rfl | rfl | rfl | rfl | rfl | rfl | rfl <;> cases hx
        | ustr hb' =>
          cases hx
          injection h4 with _ h5
          exact quoted_apart hb hb' (hq '\'' (by simp)) (x := u) (congrArg ('\'' :: ·) h5)
        | ws h => exact hcom.2 rfl
        | _ => cases hx
  | bin hb =>
    cases tx with
    | nil => exact hne rfl
    | cons x tx =>
      injection hw with h1 h2
      subst h1
      cases tx with
      | nil => injection h2 with h3; exact hq '\'' (by simp) h3
      | cons y tx =>
        injection h2 with h3 h4
        subst h3
        generalize hx : 'X' :: '\'' :: tx = x at hl
        cases hl with
        | flat hf => exact absurd (hf.1 '\'' (by rw [← hx]; simp)) (by decide)
        | sym2 h => rcases two_cases h with rfl | rfl | rfl | rfl | rfl | rfl | rfl | rfl | rfl <;> cases hx
        | bin hb' =>
          cases hx
          rename_i b b'
          rcases List.eq_nil_or_concat (d :: u) with e' | ⟨z, l, e'⟩
          · cases e'
          · rw [List.concat_eq_append] at e'
            have h4 : (b' ++ ['\'']) ++ (d :: u) = b ++ ['\''] := h4
            rw [e', ← List.append_assoc] at h4
            obtain ⟨h5, _⟩ := List.append_inj' h4 rfl
            exact hb (h5 ▸ by simp)
        | ws h => exact hcom.2 rfl
        | _ => cases hx
  | quoted hb =>
    obtain ⟨b', hb', rfl⟩ := quote_tok (.inr (.inl rfl)) hl hne hu hw
    exact quoted_apart hb hb' (hq _ (by simp)) hw
  | backquoted hb =>
    obtain ⟨b', hb', rfl⟩ := quote_tok (.inr (.inr rfl)) hl hne hu hw
    exact quoted_apart hb hb' (hq _ (by simp)) hw
  | line =>
    cases tx with
    | nil => exact hne rfl
    | cons x tx =>
      injection hw with h1 h2
      subst h1
      cases tx with
      | nil =>
        injection h2 with h3
        subst h3
        rcases hd with h | ⟨h, _⟩ | ⟨_, y, hy⟩
        · cases h
        · cases h
        · refine hc (.inl rfl) ⟨y, ?_⟩
          rw [← e, List.cons_append]
          show '-' :: '-' :: y = '-' :: _
          rw [← hy]
      | cons y tx =>
        injection h2 with h3 h4
        subst h3
        generalize hx : '-' :: '-' :: tx = x at hl
        cases hl with
        | flat hf =>
          obtain ⟨d, z, h, h'⟩ := hf.2 [] ('-' :: tx) (by rw [← hx]; rfl)
          cases h
          cases h'
        | sym2 h => rcases two_cases h with rfl | rfl | rfl | rfl | rfl | rfl | rfl | rfl | rfl <;> cases hx
        | line => exact hcom.1 rfl
        | ws h => exact hcom.2 rfl
        | _ => cases hx
  | block hb =>
    cases tx with
    | nil => exact hne rfl
    | cons x tx =>
      injection hw with h1 h2
      subst h1
      cases tx with
      | nil => injection h2 with h3; exact hq '*' (by simp) h3
      | cons y tx =>
        injection h2 with h3 h4
        subst h3
        generalize hx : '/' :: '*' :: tx = x at hl
        cases hl with
        | flat hf => exact absurd (hf.1 '*' (by rw [← hx]; simp)) (by decide)
        | sym2 h => rcases two_cases h with rfl | rfl | rfl | rfl | rfl | rfl | rfl | rfl | rfl <;> cases hx
        | block => exact hcom.1 rfl
        | ws h => exact hcom.2 rfl
        | _ => cases hx
  | ws hb =>
    cases tx with
    | nil => exact hne rfl
    | cons x tx =>
      have hx : isWs x = true := hb x (by rw [← hw]; simp)
      generalize hy : x :: tx = y at hl
      cases hl with
      | flat hf => exact absurd (hf.1 x (by rw [← hy]; simp)) (by rw [ws_not_flat hx]; decide)
      | sym2 h => rcases two_cases h with rfl | rfl | rfl | rfl | rfl | rfl | rfl | rfl | rfl <;> cases hy <;> cases hx
      | one h =>
        cases hy
        rcases h with h | h
        · rcases isWs_cases hx with rfl | rfl | rfl | rfl <;> exact absurd h (by decide)
        · exact hu h
      | ws h => exact hcom.2 rfl
      | line => exact hcom.1 rfl
      | block => exact hcom.1 rfl
      | _ => cases hy; cases hx

theorem toks_apart {t : Tok} {r : Str} (hl : LongestMatch t t.text) (hv : t.visible = true) (hu : t.kind ≠ .unrec)
    (hr : Apart r) (hc : Clear t r) : toks (t.text ++ r) = t :: toks r := by
  obtain ⟨-, hm, hb⟩ := hl
  cases hx : t.text with
  | nil => exact absurd hx (matches_ne_nil hm)
  | cons c x =>
    have := lexOne_of_longest (t := t) (r := r) (c := c) (s := x ++ r) (by rw [hx]; rfl) hm (by
      intro k w rest e h
      have e : w ++ rest = t.text ++ r := by rw [hx]; exact e
      rcases List.append_eq_append_iff.mp e with ⟨y, hy, -⟩ | ⟨y, hy, hy'⟩
      · exact hb k w y hy.symm h
      · cases y with
        | nil => exact hb k w [] (by rw [hy]; simp) h
        | cons d u =>
          rw [hy] at h
          exact (apart_best hm hv hu hr hc hy'.symm h).elim)
    rw [List.cons_append, toks_step this, if_pos hv]

theorem lineComment_toks (b r : Str) (h1 : '\r' ∉ b) (h2 : '\n' ∉ b) :
    toks (c% "--" ++ b ++ r) = toks (lineComment (b ++ r)).2 := by
  show toks ('-' :: ('-' :: (b ++ r))) = _
  rw [toks_step (t := ⟨.comment, '-' :: '-' :: (lineComment (b ++ r)).1⟩) (r := (lineComment (b ++ r)).2) rfl]
  rfl

theorem lineComment_drop (b r : Str) (h1 : '\r' ∉ b) (h2 : '\n' ∉ b) :
    (b ++ r).dropWhile (fun c => c != '\r' && c != '\n') = r.dropWhile (fun c => c != '\r' && c != '\n') := by
  induction b with
  | nil => rfl
  | cons c b ih =>
    have a1 : c ≠ '\r' := fun e => h1 (by simp [e])
    have a2 : c ≠ '\n' := fun e => h2 (by simp [e])
    rw [List.cons_append, List.dropWhile_cons, if_pos (by simp [a1, a2])]
    exact ih (fun h => h1 (List.mem_cons_of_mem _ h)) (fun h => h2 (List.mem_cons_of_mem _ h))

/-- What is left after the end of the line. -/
def afterLine : Str → Str
  | '\r' :: '\n' :: r => r
  | '\r' :: r => r
  | '\n' :: r => r
  | r => r

theorem lineComment_snd (s : Str) :
    (lineComment s).2 = afterLine (s.dropWhile fun c => c != '\r' && c != '\n') := by
  unfold lineComment afterLine
  dsimp only
  generalize s.dropWhile (fun c => c != '\r' && c != '\n') = x
  split <;> first | rfl | simp_all

/-- After a line comment. -/
theorem toks_line (b e r : Str) (h1 : '\r' ∉ b) (h2 : '\n' ∉ b) (he : e = c% "\n" ∨ e = c% "\r\n" ∨ e = c% "\r") :
    toks (c% "--" ++ b ++ e ++ r) = toks r := by
  rw [List.append_assoc _ e r, lineComment_toks b _ h1 h2, lineComment_snd, lineComment_drop b _ h1 h2]
  rcases he with rfl | rfl | rfl
  · rfl
  · rfl
  · cases r with
    | nil => rfl
    | cons c r =>
      by_cases hc : c = '\n'
      · subst hc
        exact (toks_ws _ _ rfl).symm
      · have : afterLine ('\r' :: c :: r) = c :: r := by
          unfold afterLine
          split
          · rename_i h; cases h; exact absurd rfl hc
          · rename_i h; cases h; rfl
          · rename_i h; cases h
          · rename_i h _; exact absurd rfl (h _)
        exact congrArg toks this

/-- A line comment at the end. -/
theorem toks_line_end (b : Str) (h1 : '\r' ∉ b) (h2 : '\n' ∉ b) : toks (c% "--" ++ b) = [] := by
  have := lineComment_toks b [] h1 h2
  rw [lineComment_snd, lineComment_drop b _ h1 h2, List.append_nil] at this
  exact this

theorem toks_block (b r : Str) (h : ¬ (c% "*/" <:+: b ++ c% "*")) : toks (c% "/*" ++ b ++ c% "*/" ++ r) = toks r := by
  have hb := commentBody_longest b r h
  have e : c% "/*" ++ b ++ c% "*/" ++ r = '/' :: ('*' :: (b ++ '*' :: '/' :: r)) := by simp
  rw [e]
  have hl : lexOne '/' ('*' :: (b ++ '*' :: '/' :: r)) = (⟨.comment, '/' :: '*' :: (b ++ c% "*/")⟩, r) := by
    show (match commentBody (b ++ '*' :: '/' :: r) with
      | some (b, r') => ((⟨.comment, '/' :: '*' :: b⟩ : Tok), r')
      | none => lexSym '/' _) = _
    rw [hb]
  rw [toks_step hl]
  rfl

theorem toks_gap {g : Str} (h : Gap g) (r : Str) : toks (g ++ r) = toks r := by
  induction h with
  | nil => rfl
  | ws c g hc _ ih => rw [List.cons_append, toks_ws _ _ (wsChar hc), ih]
  | block b g hb _ ih => rw [List.append_assoc, toks_block b _ hb, ih]
  | line b e g h1 h2 he _ ih => rw [List.append_assoc, toks_line b e _ h1 h2 he, ih]

theorem toks_lastGap {g : Str} (h : LastGap g) : toks g = [] := by
  rcases h with h | ⟨g, b, h, h1, h2, rfl⟩
  · have := toks_gap h []
    rw [List.append_nil] at this
    rw [this]; rfl
  · rw [List.append_assoc, toks_gap h, toks_line_end b h1 h2]

theorem gap_apart {g : Str} (h : Gap g) (hne : g ≠ []) (r : Str) : Apart (g ++ r) := by
  cases h with
  | nil => exact absurd rfl hne
  | ws c g hc _ => exact .inr (.inl ⟨c, _, rfl, wsChar hc⟩)
  | block b g hb _ => exact .inr (.inr (.inl ⟨_, rfl⟩))
  | line b e g h1 h2 he _ => exact .inr (.inr (.inr ⟨_, rfl⟩))

theorem spread_apart {ts : List Tok} {s : Str} (h : SpreadAfter ts s) : Apart s := by
  cases h with
  | last h =>
    rcases h with h | ⟨g, b, h, h1, h2, rfl⟩
    · by_cases he : s = []
      · exact .inl he
      · have := gap_apart h he []
        rwa [List.append_nil] at this
    · by_cases he : g = []
      · subst he; exact .inr (.inr (.inr ⟨_, rfl⟩))
      · rw [List.append_assoc]; exact gap_apart h he _
  | next hg hne => rw [List.append_assoc]; exact gap_apart hg hne _

/-- The token stands for itself, and the lexer knows it. -/
def Sound (t : Tok) : Prop := LongestMatch t t.text ∧ t.visible = true ∧ t.kind ≠ .unrec

theorem toks_spreadAfter : ∀ {ts : List Tok} {s : Str}, SpreadAfter ts s → (∀ t ∈ ts, Sound t) → toks s = ts
  | _, _, .last h, _ => toks_lastGap h
  | _, _, .next hg _ hc h, ht => by
    obtain ⟨h1, h2, h3⟩ := ht _ List.mem_cons_self
    rw [List.append_assoc, toks_gap hg, toks_apart h1 h2 h3 (spread_apart h) hc,
      toks_spreadAfter h fun t h => ht t (List.mem_cons_of_mem _ h)]

theorem toks_spread {ts : List Tok} {s : Str} (h : Spread ts s) (ht : ∀ t ∈ ts, Sound t) : toks s = ts := by
  cases h with
  | none h => exact toks_lastGap h
  | some hg hc h =>
    obtain ⟨h1, h2, h3⟩ := ht _ List.mem_cons_self
    rw [List.append_assoc, toks_gap hg, toks_apart h1 h2 h3 (spread_apart h) hc,
      toks_spreadAfter h fun t h => ht t (List.mem_cons_of_mem _ h)]

/-- The tokens of a text stand for themselves. -/
theorem lex_own : ∀ (n : Nat) (s : Str), ∀ t ∈ lexGo n s, LongestMatch t t.text
  | n, [], t, h => by
    rw [show lexGo n [] = [] by cases n <;> rfl] at h
    cases h
  | 0, c :: s, t, h => by cases h
  | n + 1, c :: s, t, h => by
    rcases List.mem_cons.mp h with rfl | h
    · refine ⟨⟨[], by simp⟩, lexOne_matches c s, fun k w rest e hm => ?_⟩
      refine lexOne_best c s k w (rest ++ (lexOne c s).2) ?_ hm
      rw [← List.append_assoc, e, lexOne_append]
    · exact lex_own n _ t h

end Treeno
