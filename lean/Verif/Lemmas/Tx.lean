import Verif.Lemmas.LexName
import Verif.Lemmas.Printer
import Verif.Lemmas.OneLine
import Verif.Lemmas.TypeParse
import Verif.Lemmas.TypeText
import Verif.Lemmas.CstOf
/-!
# Tokens of printed text: how pieces of text compose

`Px a s ts`: wherever `s` is printed, whatever the indentation, its tokens are `ts`; before any text if
`a`, before a separator otherwise.  `Tx s ts`: `s` is also non-empty, does not end in a line break and
does not start with a character that could join a preceding minus.
-/
namespace Treeno
open Spec

/-- The only line breaks are newlines. -/
def Clean (s : Str) : Prop := ∀ c ∈ s, isBreak c = true → c = '\n'

theorem Clean.nil : Clean [] := fun _ h => by cases h
theorem Clean.app {a b : Str} (ha : Clean a) (hb : Clean b) : Clean (a ++ b) := by
  intro c hc
  rcases List.mem_append.1 hc with h | h
  · exact ha c h
  · exact hb c h
theorem Clean.of_nb {s : Str} (h : nb s) : Clean s := fun c hc hb => by
  rw [nb_mem h c hc] at hb; cases hb
theorem Clean.ind {s : Str} (h : Clean s) (k : Nat) : Clean (ind k s) := by
  induction s with
  | nil => exact h
  | cons c s ih =>
    have hs : Clean s := fun d hd => h d (List.mem_cons_of_mem _ hd)
    have := ih hs
    simp only [Treeno.ind]
    split
    · intro d hd
      rcases List.mem_cons.1 hd with rfl | hd
      · exact fun _ => rfl
      · rcases List.mem_append.1 hd with hd | hd
        · have : d = ' ' := (List.mem_replicate.1 hd).2
          subst this; intro hb; exact absurd hb (by decide)
        · exact this d hd
    · intro d hd
      rcases List.mem_cons.1 hd with rfl | hd
      · exact h _ (by simp)
      · exact this d hd

structure Px (a : Bool) (s : Str) (ts : List Tok) : Prop where
  lx : ∀ k rest, (a = true ∨ Safe rest = true) → toks (ind k s ++ rest) = ts ++ toks rest
  clean : Clean s

theorem Px.ofLx {s ts} (h : Lx s ts) (hc : Clean s) : Px false s ts :=
  ⟨fun k rest hr => h k rest (hr.resolve_left (by decide)), hc⟩
theorem Px.ofLxA {s ts} (h : LxA s ts) (hc : Clean s) : Px true s ts := ⟨fun k rest _ => h k rest, hc⟩
theorem Px.weak {s ts} (h : Px true s ts) : Px false s ts := ⟨fun k rest _ => h.lx k rest (.inl rfl), h.clean⟩
theorem Px.nil {a} : Px a [] [] := ⟨fun _ _ _ => rfl, Clean.nil⟩

theorem Px.app {a b} {s1 s2 : Str} {t1 t2 : List Tok} (h1 : Px a s1 t1) (h2 : Px b s2 t2)
    (h : a = true ∨ SafeHd s2 = true) : Px b (s1 ++ s2) (t1 ++ t2) := by
  refine ⟨fun k rest hr => ?_, h1.clean.app h2.clean⟩
  rw [ind_append, List.append_assoc, h1.lx, h2.lx _ _ hr, List.append_assoc]
  rcases h with h | h
  · exact .inl h
  · exact .inr (Safe_ind _ _ _ (SafeHd_safe h))

theorem Px.ind {a s ts} (j : Nat) (h : Px a s ts) : Px a (ind j s) ts := by
  refine ⟨fun k rest hr => ?_, h.clean.ind j⟩
  rw [ind_ind]; exact h.lx _ _ hr

theorem Px.cast {a s ts us} (h : Px a s ts) (e : ts = us) : Px a s us := e ▸ h

theorem Px.toks {s ts} (h : Px false s ts) : toks s = ts := by
  have := h.lx 0 [] (.inr rfl)
  simpa [ind_zero] using this

theorem Px.space : Px true (c% " ") [] := .ofLxA LxA.space (.of_nb (by decide))
theorem Px.newline : Px true (c% "\n") [] := .ofLxA LxA.newline (by
  intro c hc _; simpa using hc)
theorem Px.spaces (n : Nat) : Px true (spaces n) [] := .ofLxA (LxA.spaces n) (.of_nb (nb_replicate _ _ (by decide)))
theorem Px.spacing (o : Opts) : Px true (spacing o) [] := by
  unfold Treeno.spacing
  cases o.mode
  · exact Px.space
  · exact Px.newline
theorem safe_spacing (o : Opts) (s : Str) : SafeHd (spacing o ++ s) = true := by
  unfold Treeno.spacing
  cases o.mode <;> rfl

theorem isIdChar_nb {c : Char} (h : isIdChar c = true) : isBreak c = false := by
  have : 48 ≤ c.toNat ∧ c.toNat ≤ 122 := by
    simp only [isIdChar, isLetter, isDigit, Bool.or_eq_true, Bool.and_eq_true, decide_eq_true_eq, beq_iff_eq] at h
    rcases h with (h | h) | h
    · omega
    · omega
    · subst h; decide
  cases hb : isBreak c with
  | false => rfl
  | true =>
    simp only [isBreak, Bool.or_eq_true, beq_iff_eq] at hb
    rcases hb with ((((((((h | h) | h) | h) | h) | h) | h) | h) | h) | h <;> (subst h; revert this; decide)

theorem simple_nb : ∀ (s : Str) (w : Bool), simple w s = true → nb s
  | [], _, _ => nb_nil
  | c :: s, w, h => by
    simp only [simple] at h
    split at h
    · rename_i hc
      rw [Bool.and_eq_true] at h
      exact nb_cons (isIdChar_nb hc) (simple_nb s _ h.2)
    · rw [Bool.and_eq_true, Bool.or_eq_true] at h
      refine nb_cons ?_ (simple_nb s _ h.2)
      rcases h.1 with h | h
      · rw [beq_iff_eq.1 h]; decide
      · have h1 : c ∈ ['(', ')', ',', '[', ']', '+', '*', '%', '?'] := by simpa [plainSym] using h
        have : ∀ c ∈ ['(', ')', ',', '[', ']', '+', '*', '%', '?'], isBreak c = false := by decide
        exact this c h1

/-- A literal piece of text. -/
theorem Px.lit (s : Str) (ts : List Tok) (h : (simple false s && endOK s && Treeno.toks s == ts) = true) : Px true s ts := by
  refine .ofLxA (LxA.lit s ts h) (.of_nb (simple_nb s false ?_))
  rw [Bool.and_eq_true, Bool.and_eq_true] at h
  exact h.1.1

/-- A literal piece of text that ends in a word. -/
theorem Px.litW (s : Str) (ts : List Tok) (h : (simple false s && Treeno.toks s == ts) = true) : Px false s ts := by
  refine .ofLx (Lx.lit s ts h) (.of_nb (simple_nb s false ?_))
  rw [Bool.and_eq_true] at h
  exact h.1

theorem Px.lpar : Px true (c% "(") [symT (c% "(")] := Px.lit _ _ (by decide +kernel)
theorem Px.rpar : Px true (c% ")") [symT (c% ")")] := Px.lit _ _ (by decide +kernel)
theorem Px.comma : Px true (c% ",") [symT (c% ",")] := Px.lit _ _ (by decide +kernel)

/-! ## Texts of nodes -/

/-- Does not end in a line break. -/
def Ends (s : Str) : Prop := s ≠ [] ∧ s.getLast? ≠ some '\n'

/-- The first character is none of `-`, `>` and `}`. -/
def Bg : Str → Bool
  | [] => false
  | c :: _ => c != '-' && c != '>' && c != '}'

/-- A minus at the start of the text is a minus token. -/
def Begins (s : Str) (ts : List Tok) : Prop :=
  Bg s = true ∨ ∃ r us, s = '-' :: r ∧ ts = symT (c% "-") :: us

structure Tx (s : Str) (ts : List Tok) : Prop where
  px : Px false s ts
  ends : Ends s
  begins : Begins s ts

theorem Ends.app {a b : Str} (h : Ends b) : Ends (a ++ b) := by
  refine ⟨by simp [h.1], ?_⟩
  rw [List.getLast?_append]
  cases hb : b.getLast? with
  | none => exact absurd (List.getLast?_eq_none_iff.1 hb) h.1
  | some x => simpa [hb] using h.2

theorem Ends.of {s : Str} (h : (s.getLast?.any (· != '\n')) = true) : Ends s := by
  cases hs : s.getLast? with
  | none => rw [hs] at h; simp at h
  | some x =>
    rw [hs] at h
    refine ⟨by rintro rfl; simp at hs, ?_⟩
    rw [hs]
    simpa using h

theorem Ends.of_nb {s : Str} (h : nb s) (hne : s ≠ []) : Ends s := by
  refine ⟨hne, fun hl => ?_⟩
  have := nb_mem h _ (List.mem_of_getLast? hl)
  exact absurd this (by decide)

theorem Bg.app {a b : Str} (h : Bg a = true) : Bg (a ++ b) = true := by
  cases a with
  | nil => cases h
  | cons c a => exact h
theorem Begins.app {a b : Str} {t u : List Tok} (h : Begins a t) : Begins (a ++ b) (t ++ u) := by
  rcases h with h | ⟨r, us, rfl, rfl⟩
  · exact .inl (Bg.app h)
  · exact .inr ⟨_, _, rfl, rfl⟩

theorem Tx.cast {s ts us} (h : Tx s ts) (e : ts = us) : Tx s us := e ▸ h
theorem Tx.toks {s ts} (h : Tx s ts) : toks s = ts := h.px.toks

theorem Tx.infix {s1 m s2 : Str} {t1 tm t2 : List Tok} (h1 : Tx s1 t1) (hm : Px true m tm) (hs : SafeHd m = true)
    (h2 : Tx s2 t2) : Tx (s1 ++ m ++ s2) (t1 ++ (tm ++ t2)) := by
  rw [List.append_assoc]
  exact ⟨h1.px.app (hm.app h2.px (.inl rfl)) (.inr (SafeHd_append hs)), (h2.ends.app).app, h1.begins.app⟩

theorem Tx.post {s p : Str} {t tp : List Tok} (h1 : Tx s t) (h2 : Px false p tp) (hs : SafeHd p = true)
    (he : Ends p) : Tx (s ++ p) (t ++ tp) :=
  ⟨h1.px.app h2 (.inr hs), he.app, h1.begins.app⟩

theorem Tx.pre {p s : Str} {tp t : List Tok} (h1 : Px true p tp) (hb : Bg p = true) (h2 : Tx s t) :
    Tx (p ++ s) (tp ++ t) := ⟨h1.app h2.px (.inl rfl), h2.ends.app, .inl (Bg.app hb)⟩

theorem Tx.wrap {p s q : Str} {tp ts tq : List Tok} (h1 : Px true p tp) (hb : Bg p = true) (h : Px false s ts)
    (h2 : Px true q tq) (hs : SafeHd q = true) (he : Ends q) : Tx (p ++ s ++ q) (tp ++ (ts ++ tq)) := by
  rw [List.append_assoc]
  exact ⟨h1.app (h.app h2.weak (.inr hs)) (.inl rfl), (he.app).app, .inl (Bg.app hb)⟩

theorem Tx.paren {s ts} (h : Px false s ts) : Tx (parenS s) (inParens ts) :=
  Tx.wrap Px.lpar rfl h Px.rpar rfl (Ends.of rfl)

/-- Between other brackets. -/
theorem Tx.call {p s : Str} {tp ts : List Tok} (h1 : Px true p (tp ++ [symT (c% "(")])) (hb : Bg p = true) (h : Px false s ts) :
    Tx (p ++ s ++ c% ")") (tp ++ inParens ts) :=
  (Tx.wrap h1 hb h Px.rpar rfl (Ends.of rfl)).cast (by simp [inParens])

theorem ind_eq (k : Nat) : ∀ s : Str, indentBy k s = ind k s
  | [] => rfl
  | c :: s => by
    by_cases hc : c = '\n'
    · subst hc; simp [indentBy, ind, ind_eq k s]
    · rw [indentBy.eq_3 _ _ _ (by simpa using hc), ind, if_neg hc, ind_eq k s]

theorem pad_ind {s : Str} (hc : Clean s) (h : s = [] ∨ Ends s) (k : Nat) : pad s k = ind k s := by
  rw [pad_plain, ind_eq]
  refine ⟨hc, ?_⟩
  rcases h with rfl | h
  · simp
  · exact h.2

theorem ind_ne {k : Nat} {s : Str} (h : s ≠ []) : ind k s ≠ [] := by
  cases s with
  | nil => exact absurd rfl h
  | cons c s => simp only [ind]; split <;> simp

theorem Ends.ind {s : Str} (h : Ends s) (k : Nat) : Ends (ind k s) := by
  induction s with
  | nil => exact h
  | cons c s ih =>
    cases s with
    | nil =>
      have : c ≠ '\n' := by simpa [Ends] using h
      simpa [Treeno.ind, this] using h
    | cons d s =>
      have hs : Ends (d :: s) := ⟨by simp, by simpa using h.2⟩
      have := ih hs
      rw [Treeno.ind]
      split
      · exact this.app (a := '\n' :: spaces k)
      · exact this.app (a := [c])

theorem Tx.ind {s ts} (h : Tx s ts) (k : Nat) : Tx (ind k s) ts := by
  refine ⟨h.px.ind k, h.ends.ind k, ?_⟩
  rcases h.begins with hb | ⟨r, us, rfl, rfl⟩
  · left
    cases s with
    | nil => cases hb
    | cons c s =>
      rw [Treeno.ind]
      split
      · rfl
      · exact hb
  · right
    exact ⟨_, us, by rw [Treeno.ind, if_neg (by decide)], rfl⟩

theorem Tx.pad {s ts} (h : Tx s ts) (k : Nat) : Tx (pad s k) ts := by
  rw [pad_ind h.px.clean (.inr h.ends)]
  exact h.ind k

/-! ## Lists -/

/-- Texts and their tokens. -/
inductive TxL : List Str → List (List Tok) → Prop
  | nil : TxL [] []
  | cons {s ts ss tss} : Tx s ts → TxL ss tss → TxL (s :: ss) (ts :: tss)

/-- Token lists with tokens between them. -/
def sepToks (td : List Tok) : List (List Tok) → List Tok
  | [] => []
  | [x] => x
  | x :: y :: r => x ++ (td ++ sepToks td (y :: r))

theorem sepToks_one (t : Tok) : ∀ l, sepToks [t] l = sepBy t l
  | [] => rfl
  | [_] => rfl
  | x :: y :: r => by rw [sepToks, sepBy, sepToks_one t (y :: r)]; rfl

theorem tx_loop {d : Str} {td : List Tok} (hd : Px true d td) (hs : SafeHd d = true) (m : Mode) (w : Nat) :
    ∀ {ss tss}, TxL ss tss → ss ≠ [] → ∀ (b : Bool) (cur : Nat),
      Px false (join d (joinLoop m w b cur ss)) (sepToks td tss) ∧ Ends (join d (joinLoop m w b cur ss)) ∧
        (b = true → Begins (join d (joinLoop m w b cur ss)) (sepToks td tss))
  | _, _, .nil, h, _, _ => absurd rfl h
  | _, _, @TxL.cons s ts ss tss h1 h2, _, b, cur => by
    have key : ∀ (l : Str), (l = s ∨ (b = false ∧ l = '\n' :: s)) → ∀ n,
        Px false (join d (l :: joinLoop m w false n ss)) (sepToks td (ts :: tss)) ∧
          Ends (join d (l :: joinLoop m w false n ss)) ∧
          (b = true → Begins (join d (l :: joinLoop m w false n ss)) (sepToks td (ts :: tss))) := by
      intro l hl n
      have hpl : Px false l ts := by
        rcases hl with rfl | ⟨_, rfl⟩
        · exact h1.px
        · exact Px.newline.app h1.px (.inl rfl)
      have hel : Ends l := by
        rcases hl with rfl | ⟨_, rfl⟩
        · exact h1.ends
        · exact h1.ends.app (a := ['\n'])
      have hbl : b = true → Begins l ts := by
        rcases hl with rfl | ⟨hb, _⟩
        · exact fun _ => h1.begins
        · rw [hb]; exact fun h => by cases h
      rw [join_cons, joinLoop_isEmpty]
      cases h2 with
      | nil => simpa [sepToks] using ⟨hpl, hel, hbl⟩
      | @cons s2 t2 ss2 tss2 h3 h4 =>
        obtain ⟨a1, a2, _⟩ := tx_loop hd hs m w (.cons h3 h4) (by simp) false n
        rw [List.isEmpty_cons, if_neg (by decide)]
        exact ⟨hpl.app (hd.app a1 (.inl rfl)) (.inr (SafeHd_append hs)), (a2.app).app, fun hb => (hbl hb).app⟩
    have fin : ∀ P : Prop, ∀ [Decidable P], ∀ n1 n2 : Nat, ∀ L : List Str,
        L = (if P then ((if b then [] else c% "\n") ++ s) :: joinLoop m w false n1 ss
          else s :: joinLoop m w false n2 ss) →
        Px false (join d L) (sepToks td (ts :: tss)) ∧ Ends (join d L) ∧
          (b = true → Begins (join d L) (sepToks td (ts :: tss))) := by
      intro P _ n1 n2 L hL
      subst hL
      split
      · cases b with
        | true => exact key _ (.inl rfl) _
        | false => exact key _ (.inr ⟨rfl, rfl⟩) _
      · exact key _ (.inl rfl) _
    exact fin _ _ _ _ rfl

theorem TxL.isEmpty {ss tss} (h : TxL ss tss) : ss.isEmpty = tss.isEmpty := by cases h <;> rfl

theorem tx_join {d : Str} {td : List Tok} (hd : Px true d td) (hs : SafeHd d = true) {o : Opts} {ss tss s}
    (h : TxL ss tss) (hj : joinStmts ss o d = .ok s) (hne : ss ≠ []) : Tx s (sepToks td tss) := by
  unfold joinStmts joinPrinter at hj
  split at hj
  · cases hj
    obtain ⟨a, b, c⟩ := tx_loop hd hs o.mode (80 - o.spaces) h hne true 0
    exact ⟨a, b, c rfl⟩
  · cases hj

theorem tx_commas {o : Opts} {ss tss s} (h : TxL ss tss) (hj : joinStmts ss o = .ok s) (hne : ss ≠ []) :
    Tx s (commas tss) := by
  have := tx_join Px.comma rfl h hj hne
  rwa [sepToks_one] at this

theorem px_commas {o : Opts} {ss tss s} (h : TxL ss tss) (hj : joinStmts ss o = .ok s) : Px false s (commas tss) := by
  cases h with
  | nil =>
    unfold joinStmts joinPrinter at hj
    split at hj
    · cases hj; exact Px.nil
    · cases hj
  | cons h1 h2 => exact (tx_commas (.cons h1 h2) hj (by simp)).px

/-! ## Clauses -/

/-- Entries of a statement and the tokens they print. -/
inductive EntL : Entries → List Tok → Prop
  | nil : EntL [] []
  | cons {k v tk tv es ts} : Tx k tk → (v = [] ∧ tv = [] ∨ Tx v tv) → EntL es ts →
      EntL ((k, v) :: es) (tk ++ tv ++ ts)

theorem EntL.app {a b t u} (h1 : EntL a t) (h2 : EntL b u) : EntL (a ++ b) (t ++ u) := by
  induction h1 with
  | nil => exact h2
  | cons hk hv _ ih => simpa only [List.cons_append, List.append_assoc] using EntL.cons hk hv ih
theorem EntL.cast {a t u} (h1 : EntL a t) (h : t = u) : EntL a u := h ▸ h1

theorem EntL.one {k v tk tv} (h1 : Tx k tk) (h2 : Tx v tv) : EntL [(k, v)] (tk ++ tv) := by
  simpa using EntL.cons h1 (.inr h2) .nil

theorem Tx.rjust {s ts} (h : Tx s ts) (n : Nat) : Tx (rjust s n) ts := by
  unfold Treeno.rjust
  cases hn : n - s.length with
  | zero => exact h
  | succ m => exact Tx.pre (Px.spaces (m + 1)) rfl h

theorem tx_line {m : Mode} {river : Bool} {n : Nat} {k v : Str} {tk tv : List Tok} (hk : Tx k tk)
    (hv : v = [] ∧ tv = [] ∨ Tx v tv) : Tx (stmtLine m river n (k, v)) (tk ++ tv) := by
  have go : ∀ k' v' : Str, Tx k' tk → (v' = [] ∧ tv = [] ∨ Tx v' tv) →
      Tx (if v'.isEmpty then k' else k' ++ c% " " ++ v') (tk ++ tv) := by
    intro k' v' h1 h2
    rcases h2 with ⟨rfl, rfl⟩ | h2
    · simpa using h1
    · have : v'.isEmpty = false := by
        have := h2.ends.1
        cases v' with
        | nil => exact absurd rfl this
        | cons => rfl
      rw [this]
      exact h1.infix Px.space rfl h2
  unfold stmtLine
  split
  rename_i kw s heq
  split at heq
  · cases heq
    refine go _ _ (hk.rjust n) ?_
    rcases hv with ⟨rfl, rfl⟩ | hv
    · exact .inl ⟨rfl, rfl⟩
    · right
      split
      · rename_i he; rw [List.isEmpty_iff] at he; exact absurd he hv.ends.1
      · exact hv.pad _
  · cases heq
    exact go _ _ hk hv

theorem lineSep_px (m : Mode) : Px true (lineSep m) [] := by
  cases m
  · exact Px.space
  · exact Px.newline
theorem lineSep_safe (m : Mode) (s : Str) : SafeHd (lineSep m ++ s) = true := by cases m <;> rfl

theorem tx_lines {m : Mode} {river : Bool} {n : Nat} : ∀ {es ts}, EntL es ts → es ≠ [] →
    Tx (join (lineSep m) (es.map (stmtLine m river n))) ts
  | _, _, .nil, h => absurd rfl h
  | _, _, @EntL.cons k v tk tv es ts hk hv hr, _ => by
    rw [List.map_cons, join_cons]
    have h1 := tx_line (m := m) (river := river) (n := n) hk hv
    cases hr with
    | nil => simpa using h1
    | cons a b c =>
      have h2 := tx_lines (m := m) (river := river) (n := n) (.cons a b c) (by simp)
      rw [List.map_cons, List.isEmpty_cons, if_neg (by decide), ← List.map_cons, ← List.append_assoc]
      exact (h1.infix (lineSep_px m) (by simpa using lineSep_safe m []) h2).cast (by simp)

theorem printEntries_eq {river es o s} (h : printEntries river es o = .ok s) : s = stmtString river es o := by
  obtain ⟨m, hm, h⟩ := bind_ok h
  cases h
  rw [addEntries_eq es [] (by simp)] at hm
  split at hm
  · cases hm; rfl
  · cases hm

theorem tx_print {river es o s ts} (h : printEntries river es o = .ok s) (he : EntL es ts) (hne : es ≠ []) : Tx s ts := by
  rw [printEntries_eq h, stmtString]
  have : es.isEmpty = false := by
    cases es with
    | nil => exact absurd rfl hne
    | cons => rfl
  rw [this]
  exact tx_lines he hne

/-! ## Words, names, strings, numbers -/

theorem Spec.IsWord.nb {w : Str} (h : IsWord w) : nb w := by
  obtain ⟨c, s, rfl, h1, h2⟩ := h
  exact nb_of_mem fun d hd => by
    rcases List.mem_cons.1 hd with rfl | hd
    · exact isIdChar_nb (isIdStart_isIdChar h1)
    · exact isIdChar_nb (h2 d hd)

theorem isIdStart_bg {c : Char} (h : isIdStart c = true) (s : Str) : Bg (c :: s) = true := by
  simp only [Bg, Bool.and_eq_true, bne_iff_ne]
  refine ⟨⟨?_, ?_⟩, ?_⟩ <;> (rintro rfl; exact absurd h (by decide))

theorem Tx.word {w : Str} (h : IsWord w) : Tx w [wordOf w] := by
  have hnb := h.nb
  obtain ⟨c, s, rfl, h1, h2⟩ := h
  refine ⟨.ofLx ?_ (.of_nb hnb), Ends.of_nb hnb (by simp), .inl (isIdStart_bg h1 s)⟩
  intro k rest hr
  rw [ind_plain]
  · rw [List.cons_append, toks_word c s rest h1 h2 hr]; rfl
  · intro hm; exact absurd (nb_mem hnb _ hm) (by decide)

theorem Tx.kw {w : Str} (h : isKeyword w = true) : Tx w [kwT w] := by
  obtain ⟨⟨c, s, rfl, hc⟩, hall⟩ := keyword_chars w h
  have := Tx.word ⟨c, s, rfl, hc, fun d hd => hall d (List.mem_cons_of_mem _ hd)⟩
  simpa [wordOf, h, kwT] using this

theorem nb_of {s : Str} (h : NoBreak s) : nb s := nb_of_mem h

theorem notQuote_safe {q : Char} (hq : safeC q = false) {rest : Str} (h : Safe rest = true) : NotQuote q rest := by
  rcases safe_cases h with rfl | ⟨c, s, rfl, hc⟩
  · simp [NotQuote]
  · simp only [NotQuote, List.head?_cons, ne_eq, Option.some.injEq]
    exact safeC_ne hc hq

theorem nb_no_nl {s : Str} (h : nb s) : '\n' ∉ s := fun hm => absurd (nb_mem h _ hm) (by decide)

theorem Tx.name {n : Str} (h : NameOk n) : Tx (quoteIdent n) [nameTok n] := by
  have hnb := nb_quoteIdent (nb_of h.2)
  refine ⟨.ofLx (fun k rest hr => ?_) (.of_nb hnb), Ends.of_nb hnb (by simp [quoteIdent]), .inl rfl⟩
  rw [ind_plain _ _ (nb_no_nl hnb), toks_quoted n rest h.1 (notQuote_safe (by decide) hr)]
  rfl

theorem Tx.string {n : Str} (h : StrOk n) : Tx (quoteLit n) [strTok n] := by
  have hnb := nb_quoteLit (nb_of h.2)
  refine ⟨.ofLx (fun k rest hr => ?_) (.of_nb hnb), Ends.of_nb hnb (by simp [quoteLit]), .inl rfl⟩
  rw [ind_plain _ _ (nb_no_nl hnb), toks_string n rest h.1 (notQuote_safe (by decide) hr)]
  rfl

/-- Quoted names chained by periods. -/
theorem toks_names : ∀ (n : Str) (ns : List Str) (rest : Str), (∀ m ∈ n :: ns, NameOk m) → Safe rest = true →
    toks (join (c% ".") ((n :: ns).map quoteIdent) ++ rest) = qname ((n :: ns).map nameTok) ++ toks rest
  | n, [], rest, h, hr => by
    show toks (quoteIdent n ++ rest) = _
    rw [toks_quoted n rest (h n (by simp)).1 (notQuote_safe (by decide) hr)]
    rfl
  | n, m :: ns, rest, h, hr => by
    have ih := toks_names m ns rest (fun x hx => h x (List.mem_cons_of_mem _ hx)) hr
    show toks (quoteIdent n ++ c% "." ++ join (c% ".") ((m :: ns).map quoteIdent) ++ rest) = _
    rw [List.append_assoc, List.append_assoc, toks_quoted n _ (h n (by simp)).1 (by simp [NotQuote])]
    show _ :: toks ('.' :: (join (c% ".") ((m :: ns).map quoteIdent) ++ rest)) = _
    rw [toks_dot, ih]
    · rfl
    · intro c hc
      have : c = '"' := by
        cases ns <;> simpa [join, quoteIdent] using hc.symm
      subst this; decide

theorem Tx.names (n : Str) (ns : List Str) (h : ∀ m ∈ n :: ns, NameOk m) :
    Tx (join (c% ".") ((n :: ns).map quoteIdent)) (qname ((n :: ns).map nameTok)) := by
  have hnb : nb (join (c% ".") ((n :: ns).map quoteIdent)) := by
    refine nb_join (by decide) ?_
    intro s hs
    obtain ⟨m, hm, rfl⟩ := List.mem_map.1 hs
    exact nb_quoteIdent (nb_of (h m hm).2)
  have hh : ∃ r, join (c% ".") ((n :: ns).map quoteIdent) = '"' :: r := by
    cases ns <;> exact ⟨_, rfl⟩
  obtain ⟨r, hr⟩ := hh
  refine ⟨.ofLx (fun k rest hs => ?_) (.of_nb hnb), Ends.of_nb hnb (by rw [hr]; simp), .inl (by rw [hr]; rfl)⟩
  rw [ind_plain _ _ (nb_no_nl hnb), toks_names n ns rest h hs]

theorem Tx.nat (n : Nat) : Tx (natStr n) [⟨.int, natStr n⟩] := by
  refine ⟨.ofLx (Lx.nat n) (.of_nb (nb_nat n)), Ends.of_nb (nb_nat n) (natStr_ne_nil n), .inl ?_⟩
  have h := natStr_digits n
  cases hn : natStr n with
  | nil => exact absurd hn (natStr_ne_nil n)
  | cons c s =>
    have hc := h c (by simp [hn])
    simp only [Bg, Bool.and_eq_true, bne_iff_ne]
    refine ⟨⟨?_, ?_⟩, ?_⟩ <;> (rintro rfl; exact absurd hc (by decide))

theorem Tx.int (i : Int) : Tx (intStr i) (flag (decide (i < 0)) [symT (c% "-")] ++ [⟨.int, natStr i.natAbs⟩]) := by
  cases i with
  | ofNat n => 
    have h : decide (Int.ofNat n < 0) = false := by
      rw [decide_eq_false_iff_not]; exact Int.not_lt.2 (Int.natCast_nonneg n)
    rw [h]
    exact Tx.nat n
  | negSucc n =>
    have h : decide (Int.negSucc n < 0) = true := by simp
    rw [h]
    refine ⟨.ofLx (LxA.minus_nat (n + 1)) (.of_nb (nb_int _)), Ends.of_nb (nb_int _) (by simp [intStr]), .inr ⟨_, _, rfl, rfl⟩⟩

theorem Tx.ty (t : Ty) : Px false t.sql (tyToks t) := .ofLx (lx_ty t) (.of_nb (nb_ty t))

/-! ## Symbols that may start longer ones, between blanks -/

theorem toks_op (c : Char) (s : Str) (h1 : isWs c = false) (t : Tok) (hv : t.visible = true)
    (h2 : lexOne c (' ' :: s) = (t, ' ' :: s)) : toks (c :: ' ' :: s) = t :: toks s := by
  rw [toks_step h2, if_pos hv, toks_ws _ _ (by decide)]

theorem Px.op1 (c : Char) (hc : c ∈ ['=', '<', '>', '-', '/', '+', '*', '%']) : Px true [' ', c, ' '] [symT [c]] := by
  refine .ofLxA (fun k rest => ?_) (.of_nb ?_)
  · have hn : '\n' ∉ [' ', c, ' '] := by
      intro h; revert hc; simp at h; rcases h with h; subst h; decide
    rw [ind_plain _ _ hn]
    show Treeno.toks (' ' :: c :: ' ' :: rest) = _
    rw [toks_ws _ _ (by decide)]
    simp only [List.mem_cons, List.not_mem_nil, or_false] at hc
    rcases hc with rfl | rfl | rfl | rfl | rfl | rfl | rfl | rfl <;>
      exact toks_op _ rest (by decide) _ (by rfl) (by rfl)
  · revert c; decide

theorem Px.op2 (c d : Char) (hc : [c, d] ∈ [c% "<>", c% ">=", c% "<=", c% "->"]) :
    Px true [' ', c, d, ' '] [symT [c, d]] := by
  have hcd : (c = '<' ∧ d = '>') ∨ (c = '>' ∧ d = '=') ∨ (c = '<' ∧ d = '=') ∨ (c = '-' ∧ d = '>') := by
    simpa using hc
  refine .ofLxA (fun k rest => ?_) (.of_nb ?_)
  · have hn : '\n' ∉ [' ', c, d, ' '] := by
      rcases hcd with ⟨rfl, rfl⟩ | ⟨rfl, rfl⟩ | ⟨rfl, rfl⟩ | ⟨rfl, rfl⟩ <;> decide
    rw [ind_plain _ _ hn]
    show Treeno.toks (' ' :: c :: d :: ' ' :: rest) = _
    rw [toks_ws _ _ (by decide)]
    rcases hcd with ⟨rfl, rfl⟩ | ⟨rfl, rfl⟩ | ⟨rfl, rfl⟩ | ⟨rfl, rfl⟩ <;>
      (refine (toks_step (t := symT _) (r := ' ' :: rest) (by rfl)).trans ?_
       rw [if_pos (by rfl), toks_ws _ _ (by decide)]; rfl)
  · rcases hcd with ⟨rfl, rfl⟩ | ⟨rfl, rfl⟩ | ⟨rfl, rfl⟩ | ⟨rfl, rfl⟩ <;> decide

/-- A sign in front of a text that does not start with one. -/
theorem Tx.minus {s ts} (h : Tx s ts) (hm : ∀ us, ts ≠ symT (c% "-") :: us) : Tx ('-' :: s) (symT (c% "-") :: ts) := by
  have hb : Bg s = true := by
    rcases h.begins with hb | ⟨_, us, _, e⟩
    · exact hb
    · exact absurd e (hm us)
  refine ⟨⟨fun k rest hr => ?_, Clean.app (a := ['-']) (.of_nb (by decide)) h.px.clean⟩, h.ends.app (a := ['-']), .inr ⟨_, _, rfl, rfl⟩⟩
  show Treeno.toks (Treeno.ind k ('-' :: s) ++ rest) = _
  rw [Treeno.ind, if_neg (by decide)]
  cases s with
  | nil => cases hb
  | cons c s =>
    have hi : ∃ d r, Treeno.ind k (c :: s) = d :: r ∧ Bg (d :: r) = true := by
      rw [Treeno.ind]; split
      · exact ⟨_, _, rfl, rfl⟩
      · exact ⟨_, _, rfl, hb⟩
    have hx := h.px.lx k rest hr
    obtain ⟨d, r, hd, hbd⟩ := hi
    rw [hd] at hx ⊢
    simp only [Bg, Bool.and_eq_true, bne_iff_ne] at hbd
    have hl : lexOne '-' (d :: (r ++ rest)) = (symT (c% "-"), d :: (r ++ rest)) := by
      show (match (generalizing := false) d :: (r ++ rest) with
        | '-' :: r => ((⟨.comment, '-' :: '-' :: (lineComment r).1⟩, (lineComment r).2) : Tok × Str)
        | _ => lexSym '-' (d :: (r ++ rest))) = _
      split
      · rename_i heq; injection heq with hx _; exact absurd hx hbd.1.1
      · unfold lexSym
        dsimp only
        rw [if_neg (c := twoSyms.contains ['-', d] = true)]
        · rfl
        · simp [twoSyms, hbd.1.2, hbd.2]
    show Treeno.toks ('-' :: d :: (r ++ rest)) = _
    rw [toks_step hl, if_pos (by rfl)]
    show _ :: Treeno.toks (d :: r ++ rest) = _
    rw [hx]; rfl

end Treeno
