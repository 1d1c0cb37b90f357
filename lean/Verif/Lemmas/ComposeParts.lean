import Verif.Spec.ComposeParts
import Verif.Lemmas.Compose
import Verif.Lemmas.CompleteQuery
import Verif.Lemmas.ReadValid
/-!
# Reading names and sort keys that are put together
-/
set_option autoImplicit false
set_option linter.unusedSimpArgs false
set_option linter.unusedVariables false
namespace Treeno
open Spec

/-! ## Pieces of text -/

/-- Whatever follows, the text is these tokens. -/
def LexAs (s : Str) (ts : List Tok) : Prop := ∀ y, toks (s ++ y) = ts ++ toks y

theorem LexAs.nil : LexAs [] [] := fun _ => rfl
theorem LexAs.app {s t : Str} {a b : List Tok} (h : LexAs s a) (k : LexAs t b) : LexAs (s ++ t) (a ++ b) := by
  intro y
  rw [List.append_assoc, List.append_assoc, h, k]
theorem LexAs.all {s : Str} {a : List Tok} (h : LexAs s a) : toks s = a := by
  have := h []
  rwa [List.append_nil, show toks [] = [] from rfl, List.append_nil] at this

theorem pt_app (ts X Y : List Tok) : pt ts X ++ Y = pt ts (X ++ Y) := by
  simp [pt, cl]

theorem lexAs_par {s : Str} (h : clean false (toks s) = true) : LexAs (par s) (pt (toks s) []) := by
  intro y
  rw [toks_par h, pt_app]
  rfl

/-- A keyword between blanks. -/
theorem lexAs_kw {c : Char} {w : Str} {t : Tok} (h : ∀ u, lexOne c (w ++ ' ' :: u) = (t, ' ' :: u)) (hv : t.visible = true) :
    LexAs (' ' :: c :: (w ++ [' '])) [t] := by
  intro y
  have := toks_mid (h y) hv
  simpa using this

theorem lexAs_word {c : Char} {w : Str} {t : Tok} (h : ∀ u, lexOne c (w ++ ' ' :: u) = (t, ' ' :: u)) (hv : t.visible = true) :
    LexAs (c :: (w ++ [' '])) [t] := by
  intro y
  have := toks_lead (h y) hv
  simpa using this

theorem lexAs_comma : LexAs (c% ", ") [symT (c% ",")] := by
  intro y
  refine (toks_step (t := symT (c% ",")) (r := ' ' :: y) rfl).trans ?_
  exact congrArg (symT (c% ",") :: ·) (toks_ws ' ' _ rfl)

theorem quoted_eq (n : Str) : quoted n = quoteIdent n := by simp [quoted, quoteIdent]

theorem lexAs_quoted {n : Str} (h : '"' ∉ n) : LexAs (quoted n ++ c% " ") [nameTok n] := by
  intro y
  rw [quoted_eq, List.append_assoc]
  have := toks_quoted n (' ' :: y) h (by unfold NotQuote; simp)
  rw [toks_ws ' ' y rfl] at this
  exact this

theorem lexAs_blank {s : Str} {ts : List Tok} (h : LexAs s ts) : LexAs (' ' :: s) ts := by
  intro y
  rw [List.cons_append, toks_ws ' ' _ rfl]
  exact h y

theorem lexAs_nat (n : Nat) : LexAs (natStr n ++ c% " ") [⟨.int, natStr n⟩] := by
  intro y
  rw [List.append_assoc]
  have := Lx.nat n 0 (' ' :: y) rfl
  rw [ind_zero, toks_ws ' ' y rfl] at this
  exact this

theorem ident_quoted {n : Str} (h : '"' ∉ n) : identText (nameTok n) = .ok n := by
  show Except.ok _ = _
  exact congrArg _ (stripC_quoted '"' n h)

/-- A part of a query: its text is read by `f` as `a`.  `after` is what may follow, `before` how it may start then. -/
def PartR {α : Type} (s : Str) (f : List Tok → Option (α × List Tok)) (before after : List Tok) (a : α) : Prop :=
  ∃ ts, LexAs s ts ∧ ∀ Y, Hd after Y → f (ts ++ Y) = some (a, Y) ∧ Hd before (ts ++ Y)

theorem Hd.tail {L Y : List Tok} {t : Tok} (h : Hd L Y) : Hd (t :: L) Y := by
  rcases h with rfl | ⟨u, hu, r, rfl⟩
  · exact Hd.nil
  · exact .inr ⟨u, List.mem_cons_of_mem _ hu, r, rfl⟩
theorem Hd.first {L Y : List Tok} {t : Tok} : Hd (t :: L) (t :: Y) := .inr ⟨t, List.mem_cons_self, Y, rfl⟩

theorem lexAs_sym_open : LexAs (c% "(") [symT (c% "(")] := fun y => toks_open y
theorem lexAs_sym_close : LexAs (c% ")") [symT (c% ")")] := fun y => toks_close y

/-! ## Names -/

theorem names_lex : ∀ {ns : List Str}, ns ≠ [] → (∀ n ∈ ns, '"' ∉ n) →
    ∃ ts, LexAs (namesText ns) ts ∧ (∀ Y, pIdents (ts ++ symT (c% ")") :: Y) = some (ns.map nameTok, symT (c% ")") :: Y)) ∧
      identTexts (ns.map nameTok) = .ok ns
  | [n], _, h => by
    have hn := h n (by simp)
    refine ⟨[nameTok n], lexAs_quoted hn, fun Y => rfl, ?_⟩
    show (identText (nameTok n) >>= _) = _
    rw [ident_quoted hn]; rfl
  | n :: m :: ns, _, h => by
    have hn := h n (by simp)
    obtain ⟨ts, h1, h2, h3⟩ := names_lex (ns := m :: ns) (by simp) (fun k hk => h k (List.mem_cons_of_mem _ hk))
    have hl := (lexAs_quoted hn).app (lexAs_comma.app h1)
    rw [List.append_assoc] at hl
    refine ⟨nameTok n :: symT (c% ",") :: ts, hl, fun Y => ?_, ?_⟩
    · show (pIdents (ts ++ symT (c% ")") :: Y)).map _ = _
      rw [h2]; rfl
    · show (identText (nameTok n) >>= _) = _
      rw [ident_quoted hn]
      exact ebind (a := m :: ns) h3 rfl

/-- A list of names in parentheses. -/
theorem columns_read {ns : List Str} (hne : ns ≠ []) (h : ∀ n ∈ ns, '"' ∉ n) :
    ∃ ts, LexAs (c% "(" ++ (namesText ns ++ c% ")")) (symT (c% "(") :: ts) ∧
      (∀ Y, pColumns (symT (c% "(") :: ts ++ Y) = some (ns.map nameTok, Y)) ∧ identTexts (ns.map nameTok) = .ok ns := by
  obtain ⟨ts, h1, h2, h3⟩ := names_lex hne h
  refine ⟨ts ++ [symT (c% ")")], lexAs_sym_open.app (h1.app lexAs_sym_close), fun Y => ?_, h3⟩
  have e : symT (c% "(") :: (ts ++ [symT (c% ")")]) ++ Y = symT (c% "(") :: (ts ++ symT (c% ")") :: Y) := by simp
  rw [e]
  show (pIdents (ts ++ symT (c% ")") :: Y) >>= _) = _
  exact bind_s (h2 Y) rfl

/-! ## Sort keys -/

theorem lexAs_order : LexAs (c% " ORDER BY ") [kwT (c% "ORDER"), kwT (c% "BY")] :=
  (lexAs_kw (w := c% "RDER") (fun _ => rfl) rfl).app (lexAs_word (w := c% "Y") (fun _ => rfl) rfl)

theorem sort_read {k : SortText} {o : Ord} (h : SortRead k o) {after : List Tok}
    (h1 : after.all (fun t => t.frank.isNone) = true) (h2 : after.all (fun t => !t.isSym (c% "->")) = true)
    (h3 : after.all (fun t => !t.isOrdering) = true) (h4 : after.all (fun t => !t.isKw (c% "NULLS")) = true) :
    ∃ c ts, LexAs k.text ts ∧ (∀ Y, Hd after Y → pSort P (ts ++ Y) = some (c, Y)) ∧
      ∀ cs os, CSort.convs cs = .ok os → CSort.convs (c :: cs) = .ok (o :: os) := by
  have nulls : ∀ n : Option Bool, ∃ t : Option Tok, (∀ t', t = some t' → t'.isKwOf [c% "FIRST", c% "LAST"] = true) ∧ isNullsFirst t = n.getD false ∧
      ∃ ns, LexAs (nullsText n) ns ∧
        (∀ Y, Hd after Y → optNullOrder (ns ++ Y) = some (t, Y) ∧ Hd (kwT (c% "NULLS") :: after) (ns ++ Y)) := by
    intro n
    match n with
    | none =>
      refine ⟨none, by simp, rfl, [], LexAs.nil, fun Y hY => ⟨?_, hY.tail⟩⟩
      show optNullOrder Y = _
      rw [optNullOrder, hY.kwNone _ h4]
    | some true =>
      exact ⟨some (kwT (c% "FIRST")), by intro t h; cases h; decide +kernel, rfl, [kwT (c% "NULLS"), kwT (c% "FIRST")],
        (lexAs_kw (w := c% "ULLS") (fun _ => rfl) rfl).app (lexAs_word (w := c% "IRST") (fun _ => rfl) rfl),
        fun Y hY => ⟨rfl, Hd.first⟩⟩
    | some false =>
      exact ⟨some (kwT (c% "LAST")), by intro t h; cases h; decide +kernel, rfl, [kwT (c% "NULLS"), kwT (c% "LAST")],
        (lexAs_kw (w := c% "ULLS") (fun _ => rfl) rfl).app (lexAs_word (w := c% "AST") (fun _ => rfl) rfl),
        fun Y hY => ⟨rfl, Hd.first⟩⟩
  have dirs : ∀ d : Option Bool, ∃ t : Option Tok, isDesc t = d.getD false ∧
      ∃ ds, LexAs (dirText d) ds ∧
        (∀ Z, Hd (kwT (c% "NULLS") :: after) Z → optTok Tok.isOrdering (ds ++ Z) = (t, Z) ∧
          Stop 0 (ds ++ Z) ∧ nextSym (c% "->") (ds ++ Z) = false) := by
    intro d
    match d with
    | none =>
      refine ⟨none, rfl, [], LexAs.nil, fun Z hZ => ⟨hZ.optTok _ ?_, hZ.stop ?_ 0, hZ.nextSym _ ?_⟩⟩
      · rw [List.all_cons, h3]; decide +kernel
      · rw [List.all_cons, h1]; decide +kernel
      · rw [List.all_cons, h2]; decide +kernel
    | some true =>
      exact ⟨some (kwT (c% "DESC")), rfl, [kwT (c% "DESC")], lexAs_kw (w := c% "ESC") (fun _ => rfl) rfl,
        fun Z hZ => ⟨rfl, Stop.free (by decide +kernel), rfl⟩⟩
    | some false =>
      exact ⟨some (kwT (c% "ASC")), rfl, [kwT (c% "ASC")], lexAs_kw (w := c% "SC") (fun _ => rfl) rfl,
        fun Z hZ => ⟨rfl, Stop.free (by decide +kernel), rfl⟩⟩
  obtain ⟨e, he, rfl⟩ := h
  obtain ⟨c, hc, hv, hcl⟩ := text_is he
  obtain ⟨key, d, n⟩ := k
  obtain ⟨tn, _, hn2, ns, hn3, hn4⟩ := nulls n
  obtain ⟨td, hd2, ds, hd3, hd4⟩ := dirs d
  refine ⟨.mk c td tn, _, (lexAs_par hcl).app (hd3.app hn3), fun Y hY => ?_, ?_⟩
  · obtain ⟨n1, n2⟩ := hn4 Y hY
    obtain ⟨d1, d2, d3⟩ := hd4 _ n2
    rw [pt_app, List.nil_append, pt_app, List.append_assoc, pSort]
    refine bind_s (operand_pt (by omega) hc d2 d3) ?_
    dsimp only
    rw [d1]
    exact bind_s n1 rfl
  · intro cs os h
    rw [CSort_convs_cons]
    refine ebind hv (ebind h ?_)
    rw [hd2, hn2]

theorem sorts_read {after : List Tok} (h1 : after.all (fun t => t.frank.isNone) = true)
    (h2 : after.all (fun t => !t.isSym (c% "->")) = true) (h3 : after.all (fun t => !t.isOrdering) = true)
    (h4 : after.all (fun t => !t.isKw (c% "NULLS")) = true) (h5 : after.all (fun t => !t.isSym (c% ",")) = true) :
    ∀ {ks : List SortText} {os : List Ord}, ks ≠ [] → Each SortRead ks os →
    ∃ cs ts, LexAs (sortText ks) ts ∧ (∀ Y, Hd after Y → P .sorts (ts ++ Y) = some (cs, Y)) ∧ CSort.convs cs = .ok os
  | [k], _, _, .cons h .nil => by
    obtain ⟨c, ts, k1, k2, k3⟩ := sort_read h h1 h2 h3 h4
    refine ⟨[c], ts, k1, fun Y hY => ?_, k3 [] [] rfl⟩
    rw [P_sorts, pSep]
    refine bind_s (k2 Y hY) ?_
    rw [hY.symNone _ h5]
  | k :: l :: ks, _, _, .cons h hs => by
    obtain ⟨c, ts, j1, j2, j3⟩ := sort_read h (after := [symT (c% ",")]) (by decide +kernel) (by decide +kernel) (by decide +kernel) (by decide +kernel)
    obtain ⟨cs, us, k1, k2, k3⟩ := sorts_read h1 h2 h3 h4 h5 (by simp) hs
    refine ⟨c :: cs, _, j1.app (lexAs_comma.app k1), fun Y hY => ?_, j3 cs _ k3⟩
    rw [List.append_assoc, List.append_assoc, P_sorts, pSep]
    refine bind_s (j2 _ Hd.first) ?_
    exact bind_s (k2 Y hY) rfl

theorem part_sorts {after : List Tok} (h1 : after.all (fun t => t.frank.isNone) = true)
    (h2 : after.all (fun t => !t.isSym (c% "->")) = true) (h3 : after.all (fun t => !t.isOrdering) = true)
    (h4 : after.all (fun t => !t.isKw (c% "NULLS")) = true) (h5 : after.all (fun t => !t.isSym (c% ",")) = true)
    (h6 : after.all (fun t => !t.isKw (c% "ORDER")) = true) {ks : List SortText} {os : List Ord} (h : Each SortRead ks os) :
    ∃ cs, PartR (listClause (c% " ORDER BY ") (sortText ks) ks.isEmpty) (optOrder P) (kwT (c% "ORDER") :: after) after cs ∧
      CSort.convs cs = .ok os := by
  cases ks with
  | nil =>
    cases h
    refine ⟨[], ⟨[], LexAs.nil, fun Y hY => ⟨?_, hY.tail⟩⟩, rfl⟩
    show optOrder P Y = _
    rw [optOrder, hY.kwNone _ h6]
  | cons k ks =>
    obtain ⟨cs, ts, k1, k2, k3⟩ := sorts_read h1 h2 h3 h4 h5 (by simp) h
    refine ⟨cs, ⟨_, lexAs_order.app k1, fun Y hY => ⟨?_, Hd.first⟩⟩, k3⟩
    rw [List.append_assoc]
    exact k2 Y hY

end Treeno
