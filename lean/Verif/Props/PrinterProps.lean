import Verif.Lemmas.Printer
/-!
# Printing helpers: properties C19 - C22
-/
set_option autoImplicit false
namespace Treeno.Props
open Treeno Spec

/-! ## C19: wrapping a list keeps its content -/

/-- **C19.** Joining succeeds exactly when the indentation is below the width; the text is then the
items, in order, arranged in non-empty rows, with exactly one delimiter between neighbouring items
and a line break after the delimiter at row ends, and nothing else. -/
theorem C19_join_keeps_content (delim : Str) (w : Nat) (items : List Str) (o : Opts) :
    (o.spaces < w ∧ ∃ rows : List (List Str), (∀ r ∈ rows, r ≠ []) ∧ rows.flatten = items ∧
        joinPrinter delim w items o = .ok (rowsText delim rows)) ∨
    (w ≤ o.spaces ∧ joinPrinter delim w items o = .error .assertion) := by
  by_cases h : o.spaces < w
  · refine .inl ⟨h, ?_⟩
    simp only [joinPrinter, h, if_true]
    cases items with
    | nil => exact ⟨[], by simp, rfl, rfl⟩
    | cons x r =>
      cases hm : o.mode with
      | default =>
        refine ⟨[x :: r], by simp, by simp, ?_⟩
        rw [joinLoop_default]; simp [rowsText, join]
      | pretty =>
        refine ⟨rowsLoop (w - o.spaces) [x] (x.length + commaW r) r,
          rowsLoop_nonempty _ _ _ _ (by simp), by simp [rowsLoop_flatten], ?_⟩
        rw [← joinLoop_rows delim _ r [x] _ (by simp)]
        have hc : (if r.isEmpty = true then 0 else 1) = commaW r := rfl
        simp only [joinLoop, hc, if_true, List.nil_append, Nat.zero_add, true_and, ite_self]
        rw [join_cons, joinLoop_isEmpty]
        cases hr : r.isEmpty <;> simp [join]
  · refine .inr ⟨by omega, ?_⟩
    simp [joinPrinter, h]

/-- In default mode there is a single row: the plain join of the items. -/
theorem C19_default_single_row (delim : Str) (w : Nat) (items : List Str) (n : Nat) (h : n < w) :
    joinPrinter delim w items ⟨.default, n⟩ = .ok (join delim items) := by
  simp [joinPrinter, h, joinLoop_default]

example : joinPrinter (c% ",") 10 [c% "123", c% "456", c% "789"] ⟨.pretty, 0⟩ =
    .ok (rowsText (c% ",") [[c% "123", c% "456"], [c% "789"]]) := by decide

/-! ## C20: wrapped lines fit -/

/-- **C20.** In pretty mode the rows of a comma-joined list are such that every row with at least
two items fits in the available width, and each break was needed: one more item would not have
fitted. -/
theorem C20_rows_fit (w : Nat) (items : List Str) (n : Nat) (h : n < w) :
    ∃ rows : List (List Str), (∀ r ∈ rows, r ≠ []) ∧ rows.flatten = items ∧
      joinPrinter (c% ",") w items ⟨.pretty, n⟩ = .ok (rowsText (c% ",") rows) ∧
      RowsFit (w - n) rows ∧ BreaksNeeded (w - n) rows := by
  simp only [joinPrinter, h, if_true]
  cases items with
  | nil => exact ⟨[], by simp, rfl, rfl, trivial, trivial⟩
  | cons x r =>
    have hw : rowWidth r.isEmpty [x] = x.length + commaW r := by simp [rowWidth_eq, commaW]
    have hf := rowsLoop_fit (w - n) r [x] (by simp) (by simp)
    rw [hw] at hf
    refine ⟨rowsLoop (w - n) [x] (x.length + commaW r) r,
      rowsLoop_nonempty _ _ _ _ (by simp), by simp [rowsLoop_flatten], ?_, hf⟩
    rw [← joinLoop_rows (c% ",") _ r [x] _ (by simp)]
    have hc : (if r.isEmpty = true then 0 else 1) = commaW r := rfl
    simp only [joinLoop, hc, if_true, List.nil_append, Nat.zero_add, true_and, ite_self]
    rw [join_cons, joinLoop_isEmpty]
    cases hr : r.isEmpty <;> simp [join]

/-- Rows satisfying the specification are unique, so the layout is completely determined by it. -/
theorem C20_layout_unique (w : Nat) : ∀ (rows rows' : List (List Str)),
    (∀ r ∈ rows, r ≠ []) → (∀ r ∈ rows', r ≠ []) → rows.flatten = rows'.flatten →
    RowsFit w rows → BreaksNeeded w rows → RowsFit w rows' → BreaksNeeded w rows' → rows = rows' := by
  -- the first row of either layout cannot be a proper prefix of the first row of the other
  have key : ∀ (r ext : List Str) (x : Str) (rs rs' : List (List Str)), r ≠ [] →
      RowsFit w ((r ++ x :: ext) :: rs') →
      ∀ (xs : List Str) (rs2 : List (List Str)), rs = (x :: xs) :: rs2 →
      (xs ++ rs2.flatten = ext ++ rs'.flatten) → (∀ q ∈ rs2, q ≠ []) → (∀ q ∈ rs', q ≠ []) →
      BreaksNeeded w (r :: rs) → False := by
    intro r ext x rs rs' hr hfit xs rs2 hrs hfl hn2 hn' hbr
    subst hrs
    have h1 := hbr.1
    have h2 := hfit.1 (by
      have : 1 ≤ r.length := by cases r with
        | nil => contradiction
        | cons _ _ => simp
      simp; omega)
    rw [rowWidth_eq] at h1 h2
    simp only [List.map_append, List.sum_append, List.map_cons, List.sum_cons, List.length_append,
      List.length_cons, List.map_nil, List.sum_nil, List.length_nil] at h1 h2
    have hrl : 1 ≤ r.length := by cases r with
      | nil => contradiction
      | cons _ _ => simp
    by_cases hlast : (xs.isEmpty && rs2.isEmpty) = true
    · simp only [hlast, if_true] at h1
      omega
    · have : ¬ (ext = [] ∧ rs' = []) := by
        rintro ⟨rfl, rfl⟩
        simp only [List.flatten_nil, List.append_nil] at hfl
        have hx : xs = [] := by cases xs <;> simp_all
        subst hx
        cases rs2 with
        | nil => simp at hlast
        | cons q qs =>
          have := hn2 q (by simp)
          simp at hfl; exact this hfl.1
      have h3 : (if (xs.isEmpty && rs2.isEmpty) = true then 0 else 1) = 1 := by simp [hlast]
      rw [h3] at h1
      cases ext with
      | cons e es => simp only [List.map_cons, List.sum_cons, List.length_cons] at h2; omega
      | nil => 
        have : rs'.isEmpty = false := by cases rs' <;> simp_all
        simp only [this, Bool.false_eq_true, if_false] at h2
        omega
  intro rows
  induction rows with
  | nil =>
    intro rows' _ hn' hfl _ _ _ _
    cases rows' with
    | nil => rfl
    | cons r rs =>
      have := hn' r (by simp)
      cases r with
      | nil => contradiction
      | cons a as => simp at hfl
  | cons r rs ih =>
    intro rows' hn hn' hfl hf hb hf' hb'
    cases rows' with
    | nil =>
      have := hn r (by simp)
      cases r with
      | nil => contradiction
      | cons a as => simp at hfl
    | cons r' rs' =>
      simp only [List.flatten_cons] at hfl
      have hbtail : ∀ (a : List Str) (q : List (List Str)), BreaksNeeded w (a :: q) → BreaksNeeded w q := by
        intro a q hq
        cases q with
        | nil => trivial
        | cons b bs => cases b with
          | nil => exact hq
          | cons c cs => exact hq.2
      rcases List.append_eq_append_iff.1 hfl with ⟨t, ht, ht2⟩ | ⟨t, ht, ht2⟩
      · cases t with
        | nil =>
          simp only [List.append_nil] at ht; simp only [List.nil_append] at ht2
          subst ht
          rw [ih rs' (fun q hq => hn q (by simp [hq])) (fun q hq => hn' q (by simp [hq])) ht2
            hf.2 (hbtail _ _ hb) hf'.2 (hbtail _ _ hb')]
        | cons x ext =>
          exfalso
          cases rs with
          | nil => simp at ht2
          | cons q qs =>
            cases q with
            | nil => exact hn [] (by simp) rfl
            | cons y ys =>
              simp only [List.flatten_cons, List.cons_append, List.cons.injEq] at ht2
              obtain ⟨rfl, ht2⟩ := ht2
              exact key r ext y _ rs' (hn r (by simp)) (ht ▸ hf') ys qs rfl ht2
                (fun q hq => hn q (by simp [hq])) (fun q hq => hn' q (by simp [hq])) hb
      · cases t with
        | nil =>
          simp only [List.append_nil] at ht; simp only [List.nil_append] at ht2
          subst ht
          rw [ih rs' (fun q hq => hn q (by simp [hq])) (fun q hq => hn' q (by simp [hq])) ht2.symm
            hf.2 (hbtail _ _ hb) hf'.2 (hbtail _ _ hb')]
        | cons x ext =>
          exfalso
          cases rs' with
          | nil => simp at ht2
          | cons q qs =>
            cases q with
            | nil => exact hn' [] (by simp) rfl
            | cons y ys =>
              simp only [List.flatten_cons, List.cons_append, List.cons.injEq] at ht2
              obtain ⟨rfl, ht2⟩ := ht2
              exact key r' ext y _ rs (hn' r' (by simp)) (ht ▸ hf) ys qs rfl ht2
                (fun q hq => hn' q (by simp [hq])) (fun q hq => hn q (by simp [hq])) hb'

example : joinPrinter (c% ",") 80 [c% "12", c% "34", c% "56", c% "67"] ⟨.pretty, 75⟩ =
    .ok (c% "12,\n34,\n56,67") := by decide

/-! ## C21: statement printing -/

/-- **C21.** Adding entries one by one succeeds exactly when all keywords are distinct, and then
keeps all of them in the order they were added; otherwise it raises. -/
theorem C21_entries (es : Entries) :
    addEntries [] es = if (es.map Prod.fst).Nodup then .ok es else .error .assertion := by
  simpa using addEntries_eq es [] (by simp)

/-- **C21.** Updating a printer with a further mapping succeeds exactly when no keyword is repeated,
and then appends the new entries in order. -/
theorem C21_update (m new : Entries) (h : (m.map Prod.fst).Nodup) :
    updateEntries m new =
      if ((m ++ new).map Prod.fst).Nodup then .ok (m ++ new) else .error .assertion := by
  rw [updateEntries]
  split
  · rename_i hk
    rw [if_neg]
    intro hn
    rw [List.any_eq_true] at hk
    obtain ⟨p, hp, hk⟩ := hk
    rw [hasKey_eq] at hk
    rw [List.map_append, List.nodup_append] at hn
    exact hn.2.2 _ hk _ (List.mem_map_of_mem hp) rfl
  · exact addEntries_eq new m h

/-- The text of one clause on one line. -/
def clause (e : Str × Str) : Str := if e.2 = [] then e.1 else e.1 ++ c% " " ++ e.2

/-- **C21.** Default mode: the clauses in order, separated by single blanks. -/
theorem C21_default_text (river : Bool) (es : Entries) (n : Nat) :
    stmtString river es ⟨.default, n⟩ = join (c% " ") (es.map clause) := by
  cases es with
  | nil => rfl
  | cons e es =>
    simp only [stmtString, List.isEmpty_cons, Bool.false_eq_true, if_false, lineSep]
    congr 1
    apply List.map_congr_left
    intro a _
    simp [stmtLine, clause, List.isEmpty_iff]

/-- **C21.** Pretty mode without alignment: the clauses in order, one per line. -/
theorem C21_pretty_text (es : Entries) (n : Nat) :
    stmtString false es ⟨.pretty, n⟩ = join (c% "\n") (es.map clause) := by
  cases es with
  | nil => rfl
  | cons e es =>
    simp only [stmtString, List.isEmpty_cons, Bool.false_eq_true, if_false, lineSep]
    congr 1
    apply List.map_congr_left
    intro a _
    simp [stmtLine, clause, List.isEmpty_iff]

/-- A clause with its keyword ending at column `col` and its other lines starting past it. -/
def alignedClause (col : Nat) (e : Str × Str) : Str :=
  spaces (col - e.1.length) ++ e.1 ++ (if e.2 = [] then [] else c% " " ++ indentBy (col + 1) e.2)

/-- `col` is the length of the longest keyword. -/
def IsMaxKey (col : Nat) (es : Entries) : Prop :=
  (∀ e ∈ es, e.1.length ≤ col) ∧ (es = [] ∨ ∃ e ∈ es, e.1.length = col)

theorem maxKeyLen_spec : ∀ es : Entries, es ≠ [] → IsMaxKey (maxKeyLen es) es
  | [], h => absurd rfl h
  | [e], _ => by simp [IsMaxKey, maxKeyLen]
  | e :: e2 :: es, _ => by
    have ⟨h1, h2⟩ := maxKeyLen_spec (e2 :: es) (by simp)
    have h2 : ∃ a ∈ e2 :: es, a.1.length = maxKeyLen (e2 :: es) := by simpa using h2
    show IsMaxKey (max e.1.length (maxKeyLen (e2 :: es))) _
    refine ⟨?_, .inr ?_⟩
    · intro a ha
      rcases List.mem_cons.1 ha with rfl | ha
      · omega
      · have := h1 a ha; omega
    · obtain ⟨a, ha, hl⟩ := h2
      by_cases hc : e.1.length ≥ maxKeyLen (e2 :: es)
      · exact ⟨e, by simp, by omega⟩
      · exact ⟨a, by simp [ha], by omega⟩

/-- **C21.** Pretty mode with alignment: one clause per line group, in order, every keyword ending
in the same column (the length of the longest keyword) and all further lines of a clause indented
past that column.  The clause texts must be plain (see `C22_pad_loses_text`). -/
theorem C21_river_text (es : Entries) (n : Nat) (hp : ∀ e ∈ es, Plain e.2) :
    ∃ col, IsMaxKey col es ∧
      stmtString true es ⟨.pretty, n⟩ = join (c% "\n") (es.map (alignedClause col)) := by
  cases es with
  | nil => exact ⟨0, by simp [IsMaxKey], rfl⟩
  | cons e es =>
    refine ⟨maxKeyLen (e :: es), maxKeyLen_spec _ (by simp), ?_⟩
    simp only [stmtString, List.isEmpty_cons, Bool.false_eq_true, if_false, lineSep]
    congr 1
    apply List.map_congr_left
    intro a ha
    have hpa := hp a ha
    have hne : a.2 ≠ [] → indentBy (maxKeyLen (e :: es) + 1) a.2 ≠ [] := by
      intro hn
      cases h2 : a.2 with
      | nil => contradiction
      | cons c cs => 
        by_cases hc : c = '\n'
        · subst hc; simp [indentBy]
        · rw [indentBy]; simp; exact fun h => hc h
    by_cases h2 : a.2 = []
    · simp [stmtLine, alignedClause, h2, rjust]
    · have := hne h2
      simp [stmtLine, alignedClause, h2, rjust, pad_plain hpa, this]

example : addEntries [] [(c% "SELECT", c% "1"), (c% "FROM", c% "t")] =
    .ok [(c% "SELECT", c% "1"), (c% "FROM", c% "t")] := by decide
example : addEntries [] [(c% "SELECT", c% "1"), (c% "SELECT", c% "t")] = .error .assertion := by decide
example : stmtString true [(c% "SELECT", c% "1,\n2"), (c% "FROM", c% "t")] ⟨.pretty, 4⟩ =
    c% "SELECT 1,\n       2\n  FROM t" := by decide

/-! ## C22: indentation only adds leading spaces -/

/-- **C22 (partial).** On text whose only line breaks are `'\n'` and which does not end in one,
padding inserts exactly `k` blanks after every line break and changes nothing else.
Missing: other texts, where the claim is false (`C22_pad_loses_text`). -/
theorem C22_pad_partial (s : Str) (k : Nat) (h : Plain s) : pad s k = indentBy k s :=
  pad_plain h k

/-- The lines of an indented text are the lines of the text, all but the first prefixed with `k`
blanks (validates the specification `indentBy`). -/
theorem C22_indentBy_lines (k : Nat) (s : Str) :
    linesOf (indentBy k s) = (linesOf s).headD [] :: (linesOf s).tail.map (spaces k ++ ·) := by
  have hsp : ∀ (n : Nat) (t : Str), linesOf (spaces n ++ t) =
      (spaces n ++ (linesOf t).headD []) :: (linesOf t).tail := by
    intro n t
    induction n with
    | zero => cases h : linesOf t with
      | nil => exact absurd h (linesOf_ne_nil t)
      | cons l ls => simp [spaces, h]
    | succ n ih =>
      have : spaces (n + 1) ++ t = ' ' :: (spaces n ++ t) := by simp [spaces, List.replicate_succ]
      rw [this, linesOf, if_neg (by decide), ih]
      simp [spaces, List.replicate_succ]
  induction s with
  | nil => simp [indentBy, linesOf]
  | cons c cs ih =>
    cases hl : linesOf cs with
    | nil => exact absurd hl (linesOf_ne_nil cs)
    | cons l ls =>
      rw [hl] at ih
      by_cases hc : c = '\n'
      · subst hc
        simp only [indentBy, linesOf, if_true, hsp, ih, hl]
        simp
      · have : indentBy k (c :: cs) = c :: indentBy k cs := by
          rw [indentBy]; exact fun h => hc h
        rw [this]
        simp only [linesOf, hc, if_false, ih, hl]
        simp

/-- **C22 is false in general**: a carriage return becomes a line feed, and a final line break is
dropped. -/
theorem C22_pad_loses_text : pad (c% "a\rb") 0 = c% "a\nb" ∧ pad (c% "a\n") 2 = c% "a" := by decide

example : Plain (c% "a\nbc\nd") := by
  refine ⟨?_, by decide⟩
  simp [isBreak]
  

end Treeno.Props
