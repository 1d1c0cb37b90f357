import Verif.Spec.AntlrTree
import Verif.Lemmas.Balance
/-!
# Lemmas about the command `antlr-tree`
-/
set_option autoImplicit false
namespace Treeno
open Spec

theorem reSpace_white (c : Char) : isWhite c = reSpace c := by
  have h : ∀ n, whiteCodes.contains n = ((9 ≤ n && n ≤ 13) || (28 ≤ n && n ≤ 32) || n == 0x85 || n == 0xa0 ||
      n == 0x1680 || (0x2000 ≤ n && n ≤ 0x200a) || n == 0x2028 || n == 0x2029 || n == 0x202f || n == 0x205f ||
      n == 0x3000) := by
    intro n
    rw [Bool.eq_iff_iff]
    simp [whiteCodes]
    omega
  exact h c.toNat

theorem visible_esc (s : Str) : visible s = escWhites s := by
  unfold visible escWhites
  congr 1
  funext c
  unfold escWhite
  split
  · rfl
  · rfl
  · rfl
  · rename_i h1 h2 h3
    rw [if_neg h1, if_neg h2, if_neg h3]

theorem scanMarks_cons (st : Scan) (c : Char) (r : Str) : scanMarks st (c :: r) =
    if c = '(' then st.marks ++ scanMarks .opened r
    else if c = ')' then st.marks ++ .closing :: scanMarks .between r
    else if isWhite c then st.space.2 ++ scanMarks st.space.1 r
    else scanMarks (st.char c) r := by
  rw [scanMarks, reSpace_white]

def visibleChar (c : Char) : Str := visible [c]

theorem visible_cons (c : Char) (s : Str) : visible (c :: s) = visibleChar c ++ visible s := by
  simp [visible, visibleChar]

theorem visibleChar_esc (c : Char) : visibleChar c = escWhite c := by
  rw [visibleChar, visible_esc, escWhites]; simp

theorem Rose.text_tok (s : Str) : Rose.text (.tok s) = visible s := by rw [Rose.text, visible_esc]

theorem Rose.text_none (n : Str) : Rose.text (.rule n []) = visible n := by rw [Rose.text, visible_esc]

/-! ## Words -/

def Mark.shown : Mark → List Str
  | .opening l => emitWord l
  | .closing => []
  | .word s => emitWord s

def marksShown (ms : List Mark) : List Str := ms.flatMap Mark.shown

theorem marksShown_cons (m : Mark) (ms : List Mark) : marksShown (m :: ms) = m.shown ++ marksShown ms := by
  simp [marksShown]

theorem marksShown_app (a b : List Mark) : marksShown (a ++ b) = marksShown a ++ marksShown b := by
  simp [marksShown]

def Scan.held : Scan → Str
  | .between => []
  | .opened => []
  | .label s => s
  | .word s => s

theorem Scan.marks_shown (st : Scan) : marksShown st.marks = emitWord st.held := by
  cases st <;> simp [Scan.marks, marksShown, Mark.shown, Scan.held, emitWord]

theorem Scan.space_shown (st : Scan) : marksShown st.space.2 = emitWord st.held ∧ st.space.1.held = [] := by
  cases st <;> simp [Scan.space, Scan.marks, marksShown, Mark.shown, Scan.held, emitWord]

theorem Scan.char_held (st : Scan) (c : Char) : (st.char c).held = st.held ++ [c] := by
  cases st <;> rfl

theorem scan_words : ∀ (s : Str) (st : Scan), marksShown (scanMarks st s) = wordsFrom st.held s
  | [], st => by rw [scanMarks, wordsFrom]; exact st.marks_shown
  | c :: r, st => by
    rw [scanMarks_cons, wordsFrom]
    by_cases h1 : c = '('
    · simp only [h1, if_true]
      rw [marksShown_app, st.marks_shown, scan_words r]
      simp [Scan.held]
    · by_cases h2 : c = ')'
      · simp only [h2, if_true]
        rw [if_neg (by decide), marksShown_app, st.marks_shown, marksShown_cons, scan_words r]
        simp [Scan.held, Mark.shown]
      · simp only [h1, h2, if_false]
        by_cases h3 : isWhite c = true
        · rw [if_pos h3, if_pos (by simp [h3]), marksShown_app, scan_words r, st.space_shown.1, st.space_shown.2]
        · rw [if_neg h3, if_neg (by simp [h1, h2, h3]), scan_words r, st.char_held]

theorem PTree.shownL_app : ∀ (a b : List PTree), PTree.shownL (a ++ b) = PTree.shownL a ++ PTree.shownL b
  | [], b => by simp [PTree.shownL]
  | k :: a, b => by rw [List.cons_append, PTree.shownL, PTree.shownL_app a b, PTree.shownL, List.append_assoc]

/-- What the open nodes show, outermost first. -/
def openShown : List (Str × List PTree) → List Str
  | [] => []
  | (l, ks) :: st => openShown st ++ emitWord l ++ PTree.shownL ks

def doneShown : Option PTree → List Str
  | none => []
  | some t => t.shown

theorem build_words : ∀ (ms : List Mark) (st : List (Str × List PTree)) (d : Option PTree) (p : PTree),
    (d = none ∨ st = []) → buildTree st d ms = .ok p →
    p.shown = doneShown d ++ openShown st ++ marksShown ms
  | [], st, d, p, hd, h => by
    cases st with
    | nil =>
      cases d with
      | none => rw [buildTree] at h; cases h; simp
      | some t => rw [buildTree] at h; cases h; simp [doneShown, openShown, marksShown]
    | cons x st => rw [buildTree] at h; cases h; simp
  | .opening l :: ms, st, d, p, hd, h => by
    have hd' : d = none := by
      rcases hd with hd | hd
      · exact hd
      · subst hd
        cases d with
        | none => rfl
        | some t => rw [buildTree] at h; cases h
    subst hd'
    rw [buildTree] at h
    · have := build_words ms _ _ p (.inl rfl) h
      rw [this, marksShown_cons]
      simp [doneShown, openShown, PTree.shownL, Mark.shown]
    · intro t _ h2; cases h2
  | .closing :: ms, st, d, p, hd, h => by
    rcases st with _ | ⟨⟨l, ks⟩, _ | ⟨⟨l', ks'⟩, st⟩⟩
    · rw [buildTree] at h; cases h
    · rw [buildTree] at h
      have hd' : d = none := by
        rcases hd with hd | hd
        · exact hd
        · cases hd
      rw [build_words ms _ _ p (.inr rfl) h, hd', marksShown_cons]
      simp [doneShown, openShown, PTree.shown, Mark.shown]
    · rw [buildTree] at h
      have hd' : d = none := by
        rcases hd with hd | hd
        · exact hd
        · cases hd
      rw [build_words ms _ _ p (.inl hd') h, hd', marksShown_cons]
      simp [doneShown, openShown, PTree.shownL_app, PTree.shownL, PTree.shown, Mark.shown]
  | .word s :: ms, st, d, p, hd, h => by
    rcases st with _ | ⟨⟨l, ks⟩, st⟩
    · rw [buildTree] at h; cases h
    · rw [buildTree] at h
      have hd' : d = none := by
        rcases hd with hd | hd
        · exact hd
        · cases hd
      rw [build_words ms _ _ p (.inl hd') h, hd', marksShown_cons]
      simp [doneShown, openShown, PTree.shownL_app, PTree.shownL, PTree.shown, Mark.shown]

/-- Nothing, or white space or a parenthesis first. -/
def SepStart (r : Str) : Prop := ∀ c r', r = c :: r' → (isWhite c || c == '(' || c == ')') = true

theorem SepStart.nil : SepStart [] := fun _ _ h => by cases h

theorem SepStart.cons {c : Char} {r : Str} (h : (isWhite c || c == '(' || c == ')') = true) : SepStart (c :: r) :=
  fun _ _ e => by cases e; exact h

theorem words_app : ∀ (s a r : Str), SepStart r → wordsFrom a (s ++ r) = wordsFrom a s ++ wordsOf r
  | [], a, [], _ => by simp [wordsFrom, wordsOf, emitWord]
  | [], a, c :: r, h => by
    have e1 : ∀ a, wordsFrom a (c :: r) = emitWord a ++ wordsFrom [] r := fun a => by
      rw [wordsFrom, if_pos (h c r rfl)]
    rw [List.nil_append, wordsOf, e1, e1, wordsFrom]
    simp [emitWord]
  | c :: s, a, r, h => by
    rw [List.cons_append, wordsFrom, wordsFrom]
    split
    · rw [words_app s [] r h, List.append_assoc]
    · exact words_app s _ r h

theorem words_sep {c : Char} {r : Str} (h : (isWhite c || c == '(' || c == ')') = true) :
    wordsOf (c :: r) = wordsOf r := by
  rw [wordsOf, wordsFrom, if_pos h]
  simp [emitWord, wordsOf]

theorem words_plain_from : ∀ (s a : Str), (∀ c ∈ s, isWhite c = false ∧ c ≠ '(' ∧ c ≠ ')') →
    wordsFrom a s = emitWord (a ++ s)
  | [], a, _ => by simp [wordsFrom]
  | c :: s, a, h => by
    have h1 := h c (by simp)
    rw [wordsFrom, if_neg (by simp [h1]), words_plain_from s _ fun x hx => h x (by simp [hx])]
    simp

theorem words_plain {s : Str} (h : PlainWord s) : wordsOf s = [s] := by
  rw [wordsOf, words_plain_from s [] h.2]
  have := h.1
  simp [emitWord, this]

theorem esc_plain : ∀ {s : Str}, (∀ c ∈ s, isWhite c = false ∧ c ≠ '(' ∧ c ≠ ')') → visible s = s
  | [], _ => rfl
  | c :: s, h => by
    have h1 := (h c (by simp)).1
    have h2 : visibleChar c = [c] := by
      rw [visibleChar_esc]
      unfold escWhite
      rw [if_neg, if_neg, if_neg] <;> intro e <;> subst e <;> exact absurd h1 (by decide)
    have h3 := esc_plain (s := s) fun x hx => h x (by simp [hx])
    rw [visible_cons, h2, h3]
    rfl

theorem sep_space : (isWhite ' ' || ' ' == '(' || ' ' == ')') = true := by decide
theorem sep_open : (isWhite '(' || '(' == '(' || '(' == ')') = true := by decide
theorem sep_close : (isWhite ')' || ')' == '(' || ')' == ')') = true := by decide

theorem Rose.text_inner (n : Str) (k : Rose) (ks : List Rose) (r : Str) :
    Rose.text (.rule n (k :: ks)) ++ r =
      '(' :: (visible n ++ ' ' :: (Rose.text k ++ (Rose.texts ks ++ ')' :: r))) := by
  rw [Rose.text, ← visible_esc]
  simp

mutual
theorem Rose.text_words : ∀ (t : Rose), t.Named → ∀ (r : Str), SepStart r →
    wordsOf (t.text ++ r) = t.shown ++ wordsOf r
  | .tok s, _, r, hr => by
    rw [Rose.text_tok, Rose.shown, wordsOf, words_app _ _ _ hr]; rfl
  | .rule n [], h, r, hr => by
    rw [Rose.Named] at h
    rw [Rose.text_none, Rose.shown, esc_plain h.1.2, wordsOf, words_app _ _ _ hr, ← wordsOf, words_plain h.1, Rose.shownL]
  | .rule n (k :: ks), h, r, hr => by
    rw [Rose.Named, Rose.NamedL] at h
    have hs : SepStart (Rose.texts ks ++ ')' :: r) := by
      cases ks with
      | nil => rw [Rose.texts]; exact SepStart.cons sep_close
      | cons k' ks => rw [Rose.texts]; exact SepStart.cons sep_space
    rw [Rose.text_inner, words_sep sep_open, esc_plain h.1.2, wordsOf, words_app _ _ _ (SepStart.cons sep_space),
      ← wordsOf, words_plain h.1, words_sep sep_space, Rose.text_words k h.2.1 _ hs,
      Rose.texts_words ks h.2.2 _ (SepStart.cons sep_close), words_sep sep_close, Rose.shown, Rose.shownL]
    simp
theorem Rose.texts_words : ∀ (ks : List Rose), Rose.NamedL ks → ∀ (r : Str), SepStart r →
    wordsOf (Rose.texts ks ++ r) = Rose.shownL ks ++ wordsOf r
  | [], _, r, _ => by rw [Rose.texts, Rose.shownL]; rfl
  | k :: ks, h, r, hr => by
    rw [Rose.NamedL] at h
    have hs : SepStart (Rose.texts ks ++ r) := by
      cases ks with
      | nil => rw [Rose.texts]; exact hr
      | cons k' ks => rw [Rose.texts]; exact SepStart.cons sep_space
    rw [Rose.texts, Rose.shownL, List.append_assoc, List.append_assoc]
    exact (words_sep (r := k.text ++ (Rose.texts ks ++ r)) sep_space).trans (by
      rw [Rose.text_words k h.1 _ hs, Rose.texts_words ks h.2 r hr, List.append_assoc])
end

theorem antlr_words {t : Rose} {p : PTree} (ht : t.Named) (h : antlrTree t = .ok p) : p.shown = t.shown := by
  have h1 := build_words _ _ _ p (.inl rfl) h
  rw [h1, scan_words]
  have := Rose.text_words t ht [] SepStart.nil
  simpa [doneShown, openShown, Scan.held, wordsOf, wordsFrom, emitWord] using this

/-! ## When the command succeeds -/

def closesM : Nat → List Mark → Bool
  | _, [] => false
  | d, .opening _ :: ms => closesM (d + 1) ms
  | 0, .closing :: _ => false
  | 1, .closing :: ms => ms.isEmpty
  | d + 2, .closing :: ms => closesM (d + 1) ms
  | 0, .word _ :: _ => false
  | d + 1, .word _ :: ms => closesM (d + 1) ms

theorem build_error : ∀ (ms : List Mark) (st : List (Str × List PTree)) (d : Option PTree) (e : Err),
    buildTree st d ms = .error e → e = .valueError
  | [], st, d, e, h => by
    cases st with
    | nil =>
      cases d with
      | none => rw [buildTree] at h; cases h; rfl; simp
      | some t => rw [buildTree] at h; cases h
    | cons x st => rw [buildTree] at h; cases h; rfl; simp
  | .opening l :: ms, st, d, e, h => by
    rcases st with _ | ⟨x, st⟩
    · cases d with
      | none =>
        rw [buildTree] at h
        · exact build_error ms _ _ e h
        · simp
      | some t => rw [buildTree] at h; cases h; rfl
    · rw [buildTree] at h
      · exact build_error ms _ _ e h
      · simp
  | .closing :: ms, st, d, e, h => by
    rcases st with _ | ⟨⟨l, ks⟩, _ | ⟨⟨l', ks'⟩, st⟩⟩
    · rw [buildTree] at h; cases h; rfl
    · rw [buildTree] at h; exact build_error ms _ _ e h
    · rw [buildTree] at h; exact build_error ms _ _ e h
  | .word s :: ms, st, d, e, h => by
    rcases st with _ | ⟨⟨l, ks⟩, st⟩
    · rw [buildTree] at h; cases h; rfl
    · rw [buildTree] at h; exact build_error ms _ _ e h

theorem build_done : ∀ (ms : List Mark) (t : PTree), (∃ p, buildTree [] (some t) ms = .ok p) ↔ ms = []
  | [], t => by simp [buildTree]
  | .opening l :: ms, t => by simp [buildTree]
  | .closing :: ms, t => by simp [buildTree]
  | .word s :: ms, t => by simp [buildTree]

theorem build_closes : ∀ (ms : List Mark) (st : List (Str × List PTree)),
    (∃ p, buildTree st none ms = .ok p) ↔ closesM st.length ms = true
  | [], st => by
    rw [buildTree]
    · simp [closesM]
    · simp
  | .opening l :: ms, st => by
    rw [buildTree, build_closes ms, closesM]
    · rfl
    · simp
  | .closing :: ms, st => by
    rcases st with _ | ⟨⟨l, ks⟩, _ | ⟨⟨l', ks'⟩, st⟩⟩
    · rw [buildTree]; simp [closesM]
    · rw [buildTree, build_done]; simp [closesM]
    · rw [buildTree, build_closes ms]; simp [closesM]
  | .word s :: ms, st => by
    rcases st with _ | ⟨⟨l, ks⟩, st⟩
    · rw [buildTree]; simp [closesM]
    · rw [buildTree, build_closes ms]; simp [closesM]

def closesS : Nat → Str → Bool
  | _, [] => false
  | d, c :: r =>
    if c = '(' then closesS (d + 1) r
    else if c = ')' then
      match d with
      | 0 => false
      | 1 => r.all isWhite
      | d + 2 => closesS (d + 1) r
    else if isWhite c then closesS d r
    else match d with
      | 0 => false
      | d + 1 => closesS (d + 1) r

/-- What a pending match does to the depth. -/
def Scan.closes (f : Nat → Bool) (d : Nat) : Scan → Bool
  | .between => f d
  | .opened => f (d + 1)
  | .label _ => f (d + 1)
  | .word _ => match d with
    | 0 => false
    | d + 1 => f (d + 1)

theorem scan_nil : ∀ (s : Str), (scanMarks .between s).isEmpty = s.all isWhite
  | [] => rfl
  | c :: r => by
    rw [scanMarks_cons]
    by_cases h1 : c = '('
    · subst h1
      have : ∀ (s : Str) (st : Scan), st = .opened ∨ (∃ l, st = .label l) → (scanMarks st s).isEmpty = false := by
        intro s
        induction s with
        | nil => rintro st (rfl | ⟨l, rfl⟩) <;> rfl
        | cons x s ih =>
          rintro st (rfl | ⟨l, rfl⟩) <;> rw [scanMarks_cons] <;> (try split) <;> (try split) <;> (try split) <;>
            first
            | rfl
            | exact ih _ (.inl rfl)
            | exact ih _ (.inr ⟨_, rfl⟩)
      simp only [if_true, Scan.marks, List.nil_append, this r .opened (.inl rfl)]
      simp; intro h; exact absurd h (by decide)
    · by_cases h2 : c = ')'
      · subst h2
        simp [Scan.marks]
        intro h; exact absurd h (by decide)
      · rw [if_neg h1, if_neg h2]
        by_cases h3 : isWhite c = true
        · rw [if_pos h3]
          simp [Scan.space, Scan.marks, scan_nil r, h3]
        · rw [if_neg h3]
          have : ∀ (s : Str) (w : Str), (scanMarks (.word w) s).isEmpty = false := by
            intro s
            induction s with
            | nil => intro w; rfl
            | cons x s ih =>
              intro w
              rw [scanMarks_cons]
              (try split) <;> (try split) <;> (try split) <;> first | rfl | exact ih _
          rw [Scan.char, this]
          simp [h3]

theorem marks_closes (st : Scan) (d : Nat) (ms : List Mark) :
    closesM d (st.marks ++ ms) = st.closes (fun d => closesM d ms) d := by
  cases st <;> simp [Scan.marks, Scan.closes, closesM]
  cases d <;> simp [closesM]

theorem scan_closes : ∀ (s : Str) (st : Scan) (d : Nat),
    closesM d (scanMarks st s) = st.closes (fun d => closesS d s) d
  | [], st, d => by
    rw [scanMarks]
    have := marks_closes st d []
    rw [List.append_nil] at this
    rw [this]
    cases st <;> simp [Scan.closes, closesM, closesS]
  | c :: r, st, d => by
    rw [scanMarks_cons]
    by_cases h1 : c = '('
    · subst h1
      rw [if_pos rfl, marks_closes]
      cases st <;> simp [Scan.closes, scan_closes r, closesS]
    · by_cases h2 : c = ')'
      · subst h2
        rw [if_neg (by decide), if_pos rfl, marks_closes]
        have key : ∀ d, closesM d (.closing :: scanMarks .between r) = closesS d (')' :: r) := by
          intro d
          rcases d with _ | _ | d
          · rw [closesM, closesS]; simp
          · rw [closesM, closesS, scan_nil]; simp
          · rw [closesM, closesS, scan_closes r]; simp [Scan.closes]
        cases st <;> simp [Scan.closes, key]
      · rw [if_neg h1, if_neg h2]
        by_cases h3 : isWhite c = true
        · rw [if_pos h3]
          have key : ∀ d, closesS d (c :: r) = closesS d r := fun d => by
            rw [closesS.eq_def]; simp [h1, h2, h3]
          cases st with
          | opened => simp [Scan.space, Scan.closes, key, scan_closes r]
          | between => simp [Scan.space, Scan.marks, Scan.closes, key, scan_closes r]
          | label l =>
            have := marks_closes (.label l) d (scanMarks .between r)
            simp only [Scan.space]
            rw [this]
            simp [Scan.closes, key, scan_closes r]
          | word l =>
            have := marks_closes (.word l) d (scanMarks .between r)
            simp only [Scan.space]
            rw [this]
            simp [Scan.closes, key, scan_closes r]
        · rw [if_neg h3, scan_closes r]
          have key : ∀ d, closesS (d + 1) (c :: r) = closesS (d + 1) r := fun d => by
            rw [closesS.eq_def]; simp [h1, h2, h3]
          have key0 : closesS 0 (c :: r) = false := by
            rw [closesS.eq_def]; simp [h1, h2, h3]
          cases st with
          | between =>
            cases d with
            | zero => simp [Scan.char, Scan.closes, key0]
            | succ d => simp [Scan.char, Scan.closes, key]
          | opened => simp [Scan.char, Scan.closes, key]
          | label l => simp [Scan.char, Scan.closes, key]
          | word l =>
            cases d with
            | zero => simp [Scan.char, Scan.closes]
            | succ d => simp [Scan.char, Scan.closes, key]

theorem from_closes (s : Str) : (∃ p, fromString s = .ok p) ↔ closesS 0 s = true := by
  unfold fromString
  rw [build_closes, scan_closes]
  rfl

/-! ## Depths -/

theorem depthAfter_cons (d : Nat) (c : Char) (r : Str) : depthAfter d (c :: r) =
    if c = '(' then depthAfter (d + 1) r
    else if c = ')' then match d with
      | 0 => none
      | d + 1 => depthAfter d r
    else depthAfter d r := by
  cases d <;> rfl

theorem closes_cons (d : Nat) (c : Char) (r : Str) : closesS d (c :: r) =
    if c = '(' then closesS (d + 1) r
    else if c = ')' then
      match d with
      | 0 => false
      | 1 => r.all isWhite
      | d + 2 => closesS (d + 1) r
    else if isWhite c then closesS d r
    else match d with
      | 0 => false
      | d + 1 => closesS (d + 1) r := by
  rcases d with _ | _ | d <;> rfl

theorem closes_depth : ∀ (a : Str) (d : Nat), closesS (d + 1) (a ++ [')']) = true ↔ depthAfter d a = some 0
  | [], d => by
    cases d with
    | zero => simp [closesS, depthAfter]
    | succ d => simp [closesS, depthAfter]
  | c :: a, d => by
    rw [List.cons_append, closes_cons, depthAfter_cons]
    by_cases h1 : c = '('
    · simp only [h1, if_true]; exact closes_depth a (d + 1)
    · by_cases h2 : c = ')'
      · subst h2
        cases d with
        | zero => simp; exact fun _ => by decide
        | succ d => simpa using closes_depth a d
      · simp only [h1, h2, if_false]
        split
        · exact closes_depth a d
        · exact closes_depth a d


theorem depthAfter_app : ∀ (a b : Str) (d : Nat), depthAfter d (a ++ b) = (depthAfter d a).bind fun e => depthAfter e b
  | [], b, d => rfl
  | c :: a, b, d => by
    rw [List.cons_append, depthAfter_cons, depthAfter_cons]
    split
    · exact depthAfter_app a b _
    · split
      · cases d with
        | zero => rfl
        | succ d => exact depthAfter_app a b d
      · exact depthAfter_app a b d

theorem depth_up : ∀ (s : Str) {d e : Nat}, depthAfter d s = some e → depthAfter (d + 1) s = some (e + 1)
  | [], d, e, h => by rw [depthAfter] at h ⊢; cases h; rfl
  | c :: s, d, e, h => by
    rw [depthAfter_cons] at h ⊢
    split
    · rw [if_pos (by assumption)] at h; exact depth_up s h
    · rw [if_neg (by assumption)] at h
      split
      · rw [if_pos (by assumption)] at h
        cases d with
        | zero => cases h
        | succ d => exact depth_up s h
      · rw [if_neg (by assumption)] at h; exact depth_up s h

theorem depth_flat : ∀ {s : Str}, (∀ c ∈ s, c ≠ '(' ∧ c ≠ ')') → ∀ d, depthAfter d s = some d
  | [], _, d => rfl
  | c :: s, h, d => by
    have h1 := h c (by simp)
    rw [depthAfter_cons, if_neg h1.1, if_neg h1.2]
    exact depth_flat (fun x hx => h x (by simp [hx])) d

theorem visible_cases (c : Char) :
    visibleChar c = [c] ∨ (c ≠ '(' ∧ c ≠ ')' ∧ ∀ x ∈ visibleChar c, x ≠ '(' ∧ x ≠ ')') := by
  rw [visibleChar_esc]
  unfold escWhite
  split
  · rename_i h; subst h; exact .inr (by decide)
  · split
    · rename_i h; subst h; exact .inr (by decide)
    · split
      · rename_i h; subst h; exact .inr (by decide)
      · exact .inl rfl

theorem depth_esc : ∀ (s : Str) (d : Nat), depthAfter d (visible s) = depthAfter d s
  | [], d => rfl
  | c :: s, d => by
    have ih := depth_esc s
    rw [visible_cons]
    rcases visible_cases c with h | ⟨h1, h2, h3⟩
    · rw [h, List.singleton_append, depthAfter_cons, depthAfter_cons]
      split
      · exact ih _
      · split
        · cases d with
          | zero => rfl
          | succ d => exact ih d
        · exact ih d
    · rw [depthAfter_app, depth_flat h3, depthAfter_cons, if_neg h1, if_neg h2]
      exact ih d

theorem depth_name {n : Str} (h : PlainWord n) (d : Nat) : depthAfter d (visible n) = some d := by
  rw [depth_esc]; exact depth_flat (fun c hc => (h.2 c hc).2) d

mutual
theorem Rose.depth_text : ∀ (t : Rose), t.Named → ∀ (d e : Nat),
    depthAfter d t.tokens.flatten = some e → depthAfter d t.text = some e
  | .tok s, _, d, e, h => by
    rw [Rose.tokens] at h
    rw [Rose.text_tok, depth_esc]
    simpa using h
  | .rule n [], hn, d, e, h => by
    rw [Rose.Named] at hn
    rw [Rose.tokens, Rose.tokensL] at h
    rw [Rose.text_none, depth_name hn.1]
    exact h
  | .rule n (k :: ks), hn, d, e, h => by
    have hi : depthAfter d (visible n ++ ' ' :: (Rose.text k ++ Rose.texts ks)) = some e := by
      rw [Rose.Named, Rose.NamedL] at hn
      rw [Rose.tokens, Rose.tokensL, List.flatten_append, depthAfter_app, Option.bind_eq_some_iff] at h
      obtain ⟨m, h1, h2⟩ := h
      rw [depthAfter_app, depth_name hn.1, Option.bind_some, depthAfter_cons, if_neg (by decide), if_neg (by decide), depthAfter_app,
        Rose.depth_text k hn.2.1 d m h1, Option.bind_some]
      exact Rose.depth_texts ks hn.2.2 m e h2
    have hx := Rose.text_inner n k ks []
    rw [List.append_nil] at hx
    rw [hx, depthAfter_cons, if_pos rfl]
    have : visible n ++ ' ' :: (Rose.text k ++ (Rose.texts ks ++ ')' :: [])) =
        (visible n ++ ' ' :: (Rose.text k ++ Rose.texts ks)) ++ [')'] := by simp
    rw [this, depthAfter_app, depth_up _ hi]
    rfl
theorem Rose.depth_texts : ∀ (ks : List Rose), Rose.NamedL ks → ∀ (d e : Nat),
    depthAfter d (Rose.tokensL ks).flatten = some e → depthAfter d (Rose.texts ks) = some e
  | [], _, d, e, h => by rw [Rose.tokensL] at h; rw [Rose.texts]; exact h
  | k :: ks, hn, d, e, h => by
    rw [Rose.NamedL] at hn
    rw [Rose.tokensL, List.flatten_append, depthAfter_app, Option.bind_eq_some_iff] at h
    obtain ⟨m, h1, h2⟩ := h
    rw [Rose.texts, List.append_assoc]
    show depthAfter d (' ' :: (Rose.text k ++ Rose.texts ks)) = some e
    rw [depthAfter_cons, if_neg (by decide), if_neg (by decide), depthAfter_app,
      Rose.depth_text k hn.1 d m h1, Option.bind_some]
    exact Rose.depth_texts ks hn.2 m e h2
end

theorem Rose.depth_inner : ∀ (n : Str) (k : Rose) (ks : List Rose), Rose.Named (.rule n (k :: ks)) → ∀ (d e : Nat),
    depthAfter d (Rose.tokens (.rule n (k :: ks))).flatten = some e →
    depthAfter d (visible n ++ ' ' :: (Rose.text k ++ Rose.texts ks)) = some e
  | n, k, ks, hn, d, e, h => by
    rw [Rose.Named, Rose.NamedL] at hn
    rw [Rose.tokens, Rose.tokensL, List.flatten_append, depthAfter_app, Option.bind_eq_some_iff] at h
    obtain ⟨m, h1, h2⟩ := h
    rw [depthAfter_app, depth_name hn.1, Option.bind_some, depthAfter_cons, if_neg (by decide), if_neg (by decide), depthAfter_app,
      Rose.depth_text k hn.2.1 d m h1, Option.bind_some]
    exact Rose.depth_texts ks hn.2.2 m e h2
theorem antlr_inner (n : Str) (k : Rose) (ks : List Rose) :
    (∃ p, antlrTree (.rule n (k :: ks)) = .ok p) ↔
      Matched (visible n ++ ' ' :: (Rose.text k ++ Rose.texts ks)) := by
  have hx := Rose.text_inner n k ks []
  rw [List.append_nil] at hx
  have : visible n ++ ' ' :: (Rose.text k ++ (Rose.texts ks ++ ')' :: [])) =
      (visible n ++ ' ' :: (Rose.text k ++ Rose.texts ks)) ++ [')'] := by simp
  unfold antlrTree
  rw [from_closes, hx, this, closes_cons, if_pos rfl]
  exact closes_depth _ 0

theorem antlr_error {t : Rose} {e : Err} (h : antlrTree t = .error e) : e = .valueError := build_error _ _ _ _ h

theorem antlr_or (t : Rose) : (∃ p, antlrTree t = .ok p) ∨ antlrTree t = .error .valueError := by
  cases h : antlrTree t with
  | ok p => exact .inl ⟨p, rfl⟩
  | error e => rw [antlr_error h]; exact .inr rfl

/-! ## Counting -/

theorem depth_count : ∀ (s : Str) {d e : Nat}, depthAfter d s = some e → d + s.count '(' = e + s.count ')'
  | [], d, e, h => by rw [depthAfter] at h; cases h; rfl
  | c :: s, d, e, h => by
    rw [depthAfter_cons] at h
    rw [List.count_cons, List.count_cons]
    by_cases h1 : c = '('
    · subst h1
      rw [if_pos rfl] at h
      have := depth_count s h
      simp
      omega
    · rw [if_neg h1] at h
      by_cases h2 : c = ')'
      · subst h2
        rw [if_pos rfl] at h
        cases d with
        | zero => cases h
        | succ d =>
          have := depth_count s h
          simp
          omega
      · rw [if_neg h2] at h
        have := depth_count s h
        simp [h1, h2]
        omega

theorem count_esc {x : Char} (hx : x = '(' ∨ x = ')') : ∀ (s : Str), (visible s).count x = s.count x
  | [] => rfl
  | c :: s => by
    have ih := count_esc hx s
    rw [visible_cons, List.count_append, ih, List.count_cons]
    rcases visible_cases c with h | ⟨h1, h2, h3⟩
    · rw [h, List.count_cons]; simp; omega
    · have : (visibleChar c).count x = 0 := List.count_eq_zero.2 fun hm => by
        rcases hx with rfl | rfl
        · exact (h3 _ hm).1 rfl
        · exact (h3 _ hm).2 rfl
      rw [this, if_neg]
      · omega
      · rcases hx with rfl | rfl <;> simp [h1, h2]

mutual
theorem Rose.count_text : ∀ (t : Rose), t.Named →
    ∃ k, t.text.count '(' = t.tokens.flatten.count '(' + k ∧ t.text.count ')' = t.tokens.flatten.count ')' + k
  | .tok s, _ => ⟨0, by simp [Rose.text_tok, Rose.tokens, count_esc (.inl rfl)], by
      simp [Rose.text_tok, Rose.tokens, count_esc (.inr rfl)]⟩
  | .rule n [], hn => by
    rw [Rose.Named] at hn
    have h1 : n.count '(' = 0 := List.count_eq_zero.2 fun hm => (hn.1.2 _ hm).2.1 rfl
    have h2 : n.count ')' = 0 := List.count_eq_zero.2 fun hm => (hn.1.2 _ hm).2.2 rfl
    refine ⟨0, ?_, ?_⟩ <;> simp [Rose.text_none, Rose.tokens, Rose.tokensL, esc_plain hn.1.2, h1, h2]
  | .rule n (k :: ks), hn => by
    rw [Rose.Named, Rose.NamedL] at hn
    obtain ⟨a, a1, a2⟩ := Rose.count_text k hn.2.1
    obtain ⟨b, b1, b2⟩ := Rose.count_texts ks hn.2.2
    have hx := Rose.text_inner n k ks []
    rw [List.append_nil] at hx
    have h1 : n.count '(' = 0 := List.count_eq_zero.2 fun hm => (hn.1.2 _ hm).2.1 rfl
    have h2 : n.count ')' = 0 := List.count_eq_zero.2 fun hm => (hn.1.2 _ hm).2.2 rfl
    refine ⟨a + b + 1, ?_, ?_⟩
    · rw [hx, esc_plain hn.1.2, Rose.tokens, Rose.tokensL]
      simp only [List.count_cons, List.count_append, List.flatten_append, a1, b1, h1]
      simp
      omega
    · rw [hx, esc_plain hn.1.2, Rose.tokens, Rose.tokensL]
      simp only [List.count_cons, List.count_append, List.flatten_append, a2, b2, h2]
      simp
      omega
theorem Rose.count_texts : ∀ (ks : List Rose), Rose.NamedL ks →
    ∃ k, (Rose.texts ks).count '(' = (Rose.tokensL ks).flatten.count '(' + k ∧
      (Rose.texts ks).count ')' = (Rose.tokensL ks).flatten.count ')' + k
  | [], _ => ⟨0, rfl, rfl⟩
  | k :: ks, hn => by
    rw [Rose.NamedL] at hn
    obtain ⟨a, a1, a2⟩ := Rose.count_text k hn.1
    obtain ⟨b, b1, b2⟩ := Rose.count_texts ks hn.2
    refine ⟨a + b, ?_, ?_⟩
    · rw [Rose.texts, Rose.tokensL]
      simp only [List.count_append, List.flatten_append, a1, b1]
      have : List.count '(' (c% " ") = 0 := by decide
      omega
    · rw [Rose.texts, Rose.tokensL]
      simp only [List.count_append, List.flatten_append, a2, b2]
      have : List.count ')' (c% " ") = 0 := by decide
      omega
end

theorem closes_count : ∀ (s : Str) (d : Nat), closesS d s = true → d + s.count '(' = s.count ')'
  | [], d, h => by rw [closesS] at h; cases h
  | c :: s, d, h => by
    rw [closes_cons] at h
    rw [List.count_cons, List.count_cons]
    by_cases h1 : c = '('
    · subst h1
      rw [if_pos rfl] at h
      have := closes_count s _ h
      simp
      omega
    · rw [if_neg h1] at h
      by_cases h2 : c = ')'
      · subst h2
        rw [if_pos rfl] at h
        rcases d with _ | _ | d
        · cases h
        · rw [List.all_eq_true] at h
          have e1 : s.count '(' = 0 := List.count_eq_zero.2 fun hm => absurd (h _ hm) (by decide)
          have e2 : s.count ')' = 0 := List.count_eq_zero.2 fun hm => absurd (h _ hm) (by decide)
          simp [e1, e2]
        · have := closes_count s _ h
          simp
          omega
      · rw [if_neg h2] at h
        simp only [beq_iff_eq, h1, h2, if_false]
        split at h
        · have := closes_count s _ h
          omega
        · cases d with
          | zero => cases h
          | succ d =>
            have := closes_count s _ h
            omega

theorem antlr_count {t : Rose} {p : PTree} (ht : t.Named) (h : antlrTree t = .ok p) :
    t.tokens.flatten.count '(' = t.tokens.flatten.count ')' := by
  have h1 := closes_count _ _ ((from_closes t.text).1 ⟨p, h⟩)
  obtain ⟨k, a, b⟩ := Rose.count_text t ht
  omega

/-! ## The picture -/

mutual
def Rose.marks : Rose → List Mark
  | .tok s => (wordsOf (visible s)).map .word
  | .rule n [] => [.word n]
  | .rule n (k :: ks) => .opening n :: (k.marks ++ Rose.marksL ks) ++ [.closing]
def Rose.marksL : List Rose → List Mark
  | [] => []
  | k :: ks => k.marks ++ Rose.marksL ks
end

def heldWord : Str → Scan
  | [] => .between
  | c :: s => .word (c :: s)

theorem heldWord_marks (a : Str) : (heldWord a).marks = (emitWord a).map .word := by
  cases a <;> rfl

theorem heldWord_space (a : Str) : (heldWord a).space = (.between, (emitWord a).map .word) := by
  cases a <;> rfl

theorem heldWord_char (a : Str) (c : Char) : (heldWord a).char c = heldWord (a ++ [c]) := by
  cases a <;> rfl

theorem scan_sep {a r : Str} (hr : SepStart r) :
    scanMarks (heldWord a) r = (emitWord a).map .word ++ scanMarks .between r := by
  cases r with
  | nil => rw [scanMarks, scanMarks, heldWord_marks]; simp [Scan.marks]
  | cons c r =>
    have h := hr c r rfl
    rw [scanMarks_cons, scanMarks_cons, heldWord_marks, heldWord_space]
    split
    · simp [Scan.marks]
    · split
      · simp [Scan.marks]
      · rename_i h1 h2
        have h3 : isWhite c = true := by simpa [h1, h2] using h
        rw [if_pos h3, if_pos h3]
        simp [Scan.space, Scan.marks]

theorem scan_flat : ∀ (s a r : Str), (∀ c ∈ s, c ≠ '(' ∧ c ≠ ')') → SepStart r →
    scanMarks (heldWord a) (s ++ r) = (wordsFrom a s).map .word ++ scanMarks .between r
  | [], a, r, _, hr => scan_sep hr
  | c :: s, a, r, h, hr => by
    have h1 := h c (by simp)
    have ht : ∀ c ∈ s, c ≠ '(' ∧ c ≠ ')' := fun x hx => h x (by simp [hx])
    rw [List.cons_append, scanMarks_cons, if_neg h1.1, if_neg h1.2, wordsFrom]
    by_cases h3 : isWhite c = true
    · rw [if_pos h3, if_pos (by simp [h3]), heldWord_space]
      have := scan_flat s [] r ht hr
      rw [heldWord] at this
      rw [this]
      simp
    · rw [if_neg h3, if_neg (by simp [h1, h3]), heldWord_char]
      exact scan_flat s _ r ht hr

theorem scan_label_from : ∀ (n l r : Str), (∀ c ∈ n, isWhite c = false ∧ c ≠ '(' ∧ c ≠ ')') →
    scanMarks (.label l) (n ++ ' ' :: r) = .opening (l ++ n) :: scanMarks .between r
  | [], l, r, _ => by
    rw [List.nil_append, scanMarks_cons, if_neg (by decide), if_neg (by decide), if_pos (by decide)]
    simp [Scan.space, Scan.marks]
  | c :: n, l, r, h => by
    have h1 := h c (by simp)
    rw [List.cons_append, scanMarks_cons, if_neg h1.2.1, if_neg h1.2.2, if_neg (by simp [h1.1])]
    have := scan_label_from n (l ++ [c]) r fun x hx => h x (by simp [hx])
    rw [Scan.char, this]
    simp

theorem scan_label {n : Str} (h : PlainWord n) (r : Str) :
    scanMarks .opened (n ++ ' ' :: r) = .opening n :: scanMarks .between r := by
  cases n with
  | nil => exact absurd rfl h.1
  | cons c n =>
    have h1 := h.2 c (by simp)
    rw [List.cons_append, scanMarks_cons, if_neg h1.2.1, if_neg h1.2.2, if_neg (by simp [h1.1])]
    exact scan_label_from n [c] r fun x hx => h.2 x (by simp [hx])

theorem esc_flat {s : Str} (h : '(' ∉ s ∧ ')' ∉ s) : ∀ c ∈ visible s, c ≠ '(' ∧ c ≠ ')' := by
  intro c hc
  rw [visible_esc, escWhites, List.mem_flatMap] at hc
  obtain ⟨x, hx, hc⟩ := hc
  rw [← visibleChar_esc] at hc
  rcases visible_cases x with e | ⟨_, _, e⟩
  · rw [e, List.mem_singleton] at hc
    subst hc
    exact ⟨fun e => h.1 (e ▸ hx), fun e => h.2 (e ▸ hx)⟩
  · exact e c hc

mutual
theorem Rose.scan_text : ∀ (t : Rose), t.Named → (∀ s ∈ t.tokens, '(' ∉ s ∧ ')' ∉ s) → ∀ (r : Str), SepStart r →
    scanMarks .between (t.text ++ r) = t.marks ++ scanMarks .between r
  | .tok s, _, h, r, hr => by
    rw [Rose.tokens] at h
    rw [Rose.text_tok, Rose.marks]
    exact scan_flat _ [] r (esc_flat (h s (by simp))) hr
  | .rule n [], hn, _, r, hr => by
    rw [Rose.Named] at hn
    have := scan_flat n [] r (fun c hc => (hn.1.2 c hc).2) hr
    rw [← wordsOf, words_plain hn.1] at this
    rw [Rose.text_none, Rose.marks, esc_plain hn.1.2]
    exact this
  | .rule n (k :: ks), hn, h, r, hr => by
    rw [Rose.Named, Rose.NamedL] at hn
    rw [Rose.tokens, Rose.tokensL] at h
    have hs : SepStart (Rose.texts ks ++ ')' :: r) := by
      cases ks with
      | nil => rw [Rose.texts]; exact SepStart.cons sep_close
      | cons k' ks => rw [Rose.texts]; exact SepStart.cons sep_space
    rw [Rose.text_inner, scanMarks_cons, if_pos rfl, esc_plain hn.1.2, scan_label hn.1,
      Rose.scan_text k hn.2.1 (fun s hs => h s (by simp [hs])) _ hs,
      Rose.scan_texts ks hn.2.2 (fun s hs => h s (by simp [hs])) _ (SepStart.cons sep_close),
      scanMarks_cons, if_neg (by decide), if_pos rfl, Rose.marks]
    simp [Scan.marks]
theorem Rose.scan_texts : ∀ (ks : List Rose), Rose.NamedL ks → (∀ s ∈ Rose.tokensL ks, '(' ∉ s ∧ ')' ∉ s) →
    ∀ (r : Str), SepStart r → scanMarks .between (Rose.texts ks ++ r) = Rose.marksL ks ++ scanMarks .between r
  | [], _, _, r, _ => by rw [Rose.texts, Rose.marksL]; rfl
  | k :: ks, hn, h, r, hr => by
    rw [Rose.NamedL] at hn
    rw [Rose.tokensL] at h
    have hs : SepStart (Rose.texts ks ++ r) := by
      cases ks with
      | nil => rw [Rose.texts]; exact hr
      | cons k' ks => rw [Rose.texts]; exact SepStart.cons sep_space
    rw [Rose.texts, Rose.marksL, List.append_assoc, List.append_assoc]
    show scanMarks .between (' ' :: (k.text ++ (Rose.texts ks ++ r))) = _
    rw [scanMarks_cons, if_neg (by decide), if_neg (by decide), if_pos (by decide)]
    simp only [Scan.space, Scan.marks, List.nil_append]
    rw [Rose.scan_text k hn.1 (fun s hs => h s (by simp [hs])) _ hs,
      Rose.scan_texts ks hn.2 (fun s hs => h s (by simp [hs])) r hr, List.append_assoc]
end

theorem build_open (st : List (Str × List PTree)) (l : Str) (ms : List Mark) :
    buildTree st none (.opening l :: ms) = buildTree ((l, []) :: st) none ms := by
  rw [buildTree]; simp

theorem build_words_leaf : ∀ (ws : List Str) (l : Str) (xs : List PTree) (st : List (Str × List PTree))
    (ms : List Mark), buildTree ((l, xs) :: st) none (ws.map .word ++ ms) =
      buildTree ((l, xs ++ ws.map .leaf) :: st) none ms
  | [], l, xs, st, ms => by simp
  | w :: ws, l, xs, st, ms => by
    rw [List.map_cons, List.cons_append, buildTree, build_words_leaf ws]
    simp

mutual
theorem Rose.build_marks : ∀ (t : Rose) (l : Str) (xs : List PTree) (st : List (Str × List PTree)) (ms : List Mark),
    buildTree ((l, xs) :: st) none (t.marks ++ ms) = buildTree ((l, xs ++ t.picture) :: st) none ms
  | .tok s, l, xs, st, ms => by
    rw [Rose.marks, Rose.picture, build_words_leaf]
  | .rule n [], l, xs, st, ms => by
    rw [Rose.marks, Rose.picture, List.singleton_append, buildTree]
  | .rule n (k :: ks), l, xs, st, ms => by
    rw [Rose.marks, Rose.picture, List.append_assoc, List.cons_append, build_open,
      List.append_assoc, Rose.build_marks k, Rose.build_marksL ks, List.singleton_append, buildTree]
    simp
theorem Rose.build_marksL : ∀ (ks : List Rose) (l : Str) (xs : List PTree) (st : List (Str × List PTree))
    (ms : List Mark),
    buildTree ((l, xs) :: st) none (Rose.marksL ks ++ ms) = buildTree ((l, xs ++ Rose.pictureL ks) :: st) none ms
  | [], l, xs, st, ms => by rw [Rose.marksL, Rose.pictureL]; simp
  | k :: ks, l, xs, st, ms => by
    rw [Rose.marksL, Rose.pictureL, List.append_assoc, Rose.build_marks k, Rose.build_marksL ks, List.append_assoc]
end

theorem antlr_picture {n : Str} {k : Rose} {ks : List Rose} (hn : Rose.Named (.rule n (k :: ks)))
    (h : ∀ s ∈ Rose.tokens (.rule n (k :: ks)), '(' ∉ s ∧ ')' ∉ s) :
    antlrTree (.rule n (k :: ks)) = .ok (.node n (k.picture ++ Rose.pictureL ks)) := by
  have h1 := Rose.scan_text _ hn h [] SepStart.nil
  rw [List.append_nil] at h1
  unfold antlrTree fromString
  rw [h1, Rose.marks, List.append_assoc, List.cons_append, build_open, List.append_assoc, Rose.build_marks,
    Rose.build_marksL, List.singleton_append, buildTree]
  simp [scanMarks, Scan.marks, buildTree]

/-! ## Tokens -/

/-- Scanning for a closing parenthesis, as a depth. -/
def depthToks : Nat → List Tok → Except (List Tok) Nat
  | d, [] => .ok d
  | d, t :: ts =>
    if t.isSym (c% "(") then depthToks (d + 1) ts
    else if t.isSym (c% ")") then
      match d with
      | 0 => .error ts
      | d + 1 => depthToks d ts
    else depthToks d ts

theorem scan_depth : ∀ (ts : List Tok) (d : Nat) (rest : List Tok), scanClose d (ts ++ rest) =
    match depthToks d ts with
    | .ok e => scanClose e rest
    | .error m => some (m ++ rest)
  | [], d, rest => rfl
  | t :: ts, d, rest => by
    rw [List.cons_append, scanClose.eq_def, depthToks.eq_def]
    simp only
    split
    · exact scan_depth ts _ rest
    · split
      · cases d with
        | zero => rfl
        | succ d => exact scan_depth ts d rest
      · exact scan_depth ts d rest

theorem Bal.depth {ts : List Tok} (h : Bal ts) : depthToks 0 ts = .ok 0 := by
  have h1 := h 0 [symT (c% ")")]
  rw [scan_depth, scan_rpar0] at h1
  cases e : depthToks 0 ts with
  | error m => rw [e] at h1; simp at h1
  | ok d =>
    rw [e] at h1
    cases d with
    | zero => rfl
    | succ d => simp only [scan_rpar] at h1; cases h1

theorem depth_toks : ∀ (ts : List Tok), (∀ t ∈ ts, OwnMatched t) → ∀ (d e : Nat), depthToks d ts = .ok e →
    depthAfter d (ts.map (·.text)).flatten = some e
  | [], _, d, e, h => by rw [depthToks] at h; cases h; rfl
  | t :: ts, ht, d, e, h => by
    have ih := depth_toks ts fun x hx => ht x (by simp [hx])
    rw [List.map_cons, List.flatten_cons, depthAfter_app]
    rw [depthToks.eq_def] at h
    simp only at h
    have htx : ∀ s, t.isSym s = true → t.text = s := fun s hs => by
      simp [Tok.isSym] at hs; exact hs.2
    by_cases h1 : t.isSym (c% "(") = true
    · rw [if_pos h1] at h
      rw [htx _ h1]
      exact ih _ _ h
    · rw [if_neg h1] at h
      by_cases h2 : t.isSym (c% ")") = true
      · rw [if_pos h2] at h
        rw [htx _ h2]
        cases d with
        | zero => cases h
        | succ d => exact ih _ _ h
      · rw [if_neg h2] at h
        rcases ht t (by simp) with hs | hs | hs
        · exact absurd hs h1
        · exact absurd hs h2
        · have : ∀ d, depthAfter d t.text = some d := by
            intro d
            induction d with
            | zero => exact hs
            | succ d ih => exact depth_up _ ih
          rw [this, Option.bind_some]
          exact ih _ _ h

theorem Bal.matched {ts : List Tok} (h : Bal ts) (ht : ∀ t ∈ ts, OwnMatched t) : Matched (ts.map (·.text)).flatten :=
  depth_toks ts ht 0 0 h.depth

theorem antlr_matched {t : Rose} (ht : t.Named) (hi : t.Inner) (h : Matched t.tokens.flatten) :
    ∃ p, antlrTree t = .ok p := by
  match t, hi with
  | .rule n (k :: ks), _ => exact (antlr_inner n k ks).2 (Rose.depth_inner n k ks ht 0 0 h)

end Treeno
