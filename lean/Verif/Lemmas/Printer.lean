import Verif.Printer
import Verif.Spec.Layout
/-!
# Helper lemmas about the printing helpers
-/
namespace Treeno
open Spec

theorem join_cons (sep x : Str) (l : List Str) :
    join sep (x :: l) = x ++ (if l.isEmpty then [] else sep ++ join sep l) := by
  cases l <;> simp [join]

theorem join_cons_ne (sep x : Str) {l : List Str} (h : l ≠ []) :
    join sep (x :: l) = x ++ sep ++ join sep l := by
  cases l with
  | nil => contradiction
  | cons y r => rfl

theorem join_append_single (sep : Str) {l : List Str} (h : l ≠ []) (x : Str) :
    join sep (l ++ [x]) = join sep l ++ sep ++ x := by
  induction l with
  | nil => contradiction
  | cons y r ih =>
    cases r with
    | nil => simp [join]
    | cons z r => 
      have := ih (by simp)
      simp only [List.cons_append, join] at this ⊢
      rw [this]; simp [List.append_assoc]

/-- Room for the comma after an item. -/
def commaW (rest : List Str) : Nat := if rest.isEmpty then 0 else 1

/-- The rows chosen by the loop of `JoinPrinter.to_string` in pretty mode. -/
def rowsLoop (w : Nat) : List Str → Nat → List Str → List (List Str)
  | row, _, [] => [row]
  | row, cur, line :: rest =>
    if cur + (line.length + commaW rest) > w then row :: rowsLoop w [line] (line.length + commaW rest) rest
    else rowsLoop w (row ++ [line]) (cur + (line.length + commaW rest)) rest

theorem rowsLoop_flatten (w : Nat) : ∀ (rest row : List Str) (cur : Nat),
    (rowsLoop w row cur rest).flatten = row ++ rest
  | [], row, cur => by simp [rowsLoop]
  | line :: rest, row, cur => by
    simp only [rowsLoop]; split <;> simp [rowsLoop_flatten w rest]

theorem rowsLoop_ne_nil (w : Nat) : ∀ (rest row : List Str) (cur : Nat), rowsLoop w row cur rest ≠ []
  | [], row, cur => by simp [rowsLoop]
  | line :: rest, row, cur => by
    simp only [rowsLoop]; split
    · simp
    · exact rowsLoop_ne_nil w rest _ _

/-- The first row extends the row under construction. -/
theorem rowsLoop_head (w : Nat) : ∀ (rest row : List Str) (cur : Nat),
    ∃ ext rs, rowsLoop w row cur rest = (row ++ ext) :: rs ∧ 
      (ext.isEmpty && rs.isEmpty) = rest.isEmpty
  | [], row, cur => ⟨[], [], by simp [rowsLoop]⟩
  | line :: rest, row, cur => by
    simp only [rowsLoop]; split
    · exact ⟨[], _, by simp; rfl, by simpa using rowsLoop_ne_nil w rest _ _⟩
    · obtain ⟨ext, rs, h, _⟩ := rowsLoop_head w rest (row ++ [line]) (cur + (line.length + commaW rest))
      exact ⟨line :: ext, rs, by rw [h]; simp, by simp⟩

theorem rowsLoop_nonempty (w : Nat) : ∀ (rest row : List Str) (cur : Nat), row ≠ [] →
    ∀ r ∈ rowsLoop w row cur rest, r ≠ []
  | [], row, cur, h => by simpa [rowsLoop] using h
  | line :: rest, row, cur, h => by
    simp only [rowsLoop]; split
    · intro r hr
      rcases List.mem_cons.1 hr with rfl | hr
      · exact h
      · exact rowsLoop_nonempty w rest _ _ (by simp) r hr
    · exact rowsLoop_nonempty w rest _ _ (by simp)

theorem rowsText_cons (delim : Str) (r : List Str) {rs : List (List Str)} (h : rs ≠ []) :
    rowsText delim (r :: rs) = join delim r ++ delim ++ ['\n'] ++ rowsText delim rs := by
  simp only [rowsText, List.map_cons]
  rw [join_cons_ne _ _ (by simpa using h)]; simp [List.append_assoc]

theorem joinLoop_ne_nil (m : Mode) (w : Nat) (b : Bool) (cur : Nat) {l : List Str} (h : l ≠ []) :
    joinLoop m w b cur l ≠ [] := by
  cases l with
  | nil => contradiction
  | cons x r => simp only [joinLoop]; split <;> split <;> simp

theorem joinLoop_isEmpty (m : Mode) (w : Nat) (b : Bool) (cur : Nat) (l : List Str) :
    (joinLoop m w b cur l).isEmpty = l.isEmpty := by
  cases l with
  | nil => rfl
  | cons x r => simp only [joinLoop]; split <;> split <;> simp

theorem joinLoop_rows (delim : Str) (w : Nat) : ∀ (rest row : List Str) (cur : Nat), row ≠ [] →
    join delim row ++ (if rest.isEmpty then [] else delim ++ join delim (joinLoop .pretty w false cur rest)) =
      rowsText delim (rowsLoop w row cur rest)
  | [], row, cur, h => by simp [rowsLoop, rowsText, join]
  | line :: rest, row, cur, h => by
    have hc : (if rest.isEmpty = true then 0 else 1) = commaW rest := rfl
    simp only [rowsLoop, joinLoop, List.isEmpty_cons, Bool.false_eq_true, if_false, true_and, hc]
    split
    · rename_i hlt
      rw [rowsText_cons delim row (rowsLoop_ne_nil w rest _ _), ← joinLoop_rows delim w rest [line] _ (by simp)]
      rw [join_cons, joinLoop_isEmpty]
      cases hr : rest.isEmpty <;> simp [join, List.append_assoc]
    · rename_i hlt
      rw [← joinLoop_rows delim w rest (row ++ [line]) _ (by simp), join_append_single _ h]
      rw [join_cons, joinLoop_isEmpty]
      cases hr : rest.isEmpty <;> simp [List.append_assoc]

theorem join_comma_length : ∀ row : List Str,
    (join (c% ",") row).length = (row.map List.length).sum + (row.length - 1)
  | [] => rfl
  | [x] => by simp [join]
  | x :: y :: r => by
    have := join_comma_length (y :: r)
    simp only [join, List.length_append, this, List.map_cons, List.sum_cons, List.length_cons,
      List.length_nil]
    omega

theorem rowWidth_eq (b : Bool) (row : List Str) :
    rowWidth b row = (row.map List.length).sum + (row.length - 1) + (if b then 0 else 1) := by
  rw [rowWidth, List.length_append, join_comma_length]; cases b <;> simp

/-- Width counter of the loop: the items of the row, each with its comma. -/
def rowCount (row : List Str) : Nat := (row.map List.length).sum + row.length

theorem rowWidth_snoc (b : Bool) {row : List Str} (line : Str) :
    rowWidth b (row ++ [line]) = rowCount row + line.length + (if b then 0 else 1) := by
  simp only [rowWidth_eq, rowCount, List.map_append, List.sum_append, List.length_append]
  simp; omega

theorem rowsLoop_fit (w : Nat) : ∀ (rest row : List Str), row ≠ [] →
    (2 ≤ row.length → rowWidth rest.isEmpty row ≤ w) →
    RowsFit w (rowsLoop w row (rowWidth rest.isEmpty row) rest) ∧
    BreaksNeeded w (rowsLoop w row (rowWidth rest.isEmpty row) rest)
  | [], row, h, hw => by simpa [rowsLoop, RowsFit, BreaksNeeded] using hw
  | line :: rest, row, h, hw => by
    have hcnt : rowWidth false row = rowCount row := by
      cases row with
      | nil => contradiction
      | cons a r => simp [rowWidth_eq, rowCount]; omega
    simp only [List.isEmpty_cons] at hw ⊢
    simp only [rowsLoop]
    have hl : rowWidth rest.isEmpty [line] = line.length + commaW rest := by
      simp [rowWidth_eq, commaW]
    split
    · rename_i hgt
      have ih := rowsLoop_fit w rest [line] (by simp) (by simp)
      rw [hl] at ih
      obtain ⟨ext, rs, he, hemp⟩ := rowsLoop_head w rest [line] (line.length + commaW rest)
      refine ⟨⟨?_, ih.1⟩, ?_⟩
      · have : (rowsLoop w [line] (line.length + commaW rest) rest).isEmpty = false := by
          rw [he]; rfl
        rw [this]; exact hw
      · have ih2 := ih.2
        rw [he] at ih2 ⊢
        simp only [List.singleton_append, BreaksNeeded] at ih2 ⊢
        refine ⟨?_, ih2⟩
        rw [rowWidth_snoc, hemp]; show _ + _ + commaW rest > w; omega
    · rename_i hle
      have hsn : rowWidth rest.isEmpty (row ++ [line]) = rowCount row + line.length + commaW rest :=
        rowWidth_snoc rest.isEmpty (row := row) line
      have ih := rowsLoop_fit w rest (row ++ [line]) (by simp) (by intro _; omega)
      have : rowWidth false row + (line.length + commaW rest) = rowWidth rest.isEmpty (row ++ [line]) := by
        omega
      rw [this]; exact ih

theorem joinLoop_default (w : Nat) : ∀ (b : Bool) (cur : Nat) (l : List Str),
    joinLoop .default w b cur l = l
  | _, _, [] => rfl
  | b, cur, x :: r => by
    rw [joinLoop]
    simp [joinLoop_default w false _ r]

/-! ### `addEntry` -/

theorem hasKey_eq {α} (k : Str) (d : List (Str × α)) : hasKey k d = true ↔ k ∈ d.map Prod.fst := by
  simp only [hasKey, List.any_eq_true, List.mem_map]
  exact ⟨fun ⟨p, hp, e⟩ => ⟨p, hp, by simpa using e⟩, fun ⟨p, hp, e⟩ => ⟨p, hp, by simpa using e⟩⟩

theorem addEntries_eq : ∀ (new m : Entries), (m.map Prod.fst).Nodup →
    addEntries m new =
      if ((m ++ new).map Prod.fst).Nodup then .ok (m ++ new) else .error .assertion
  | [], m, h => by simp [addEntries, h]
  | (k, v) :: r, m, h => by
    simp only [addEntries, addEntry]
    by_cases hk : hasKey k m = true
    · rw [if_pos hk, if_neg]
      · rfl
      · rw [hasKey_eq] at hk
        simp only [List.map_append, List.map_cons]
        intro hn
        rw [List.nodup_append] at hn
        exact hn.2.2 k hk k (by simp) rfl
    · rw [if_neg hk]
      rw [hasKey_eq] at hk
      have hn : ((m ++ [(k, v)]).map Prod.fst).Nodup := by
        simp only [List.map_append, List.map_cons, List.map_nil]
        rw [List.nodup_append]
        refine ⟨h, by simp, ?_⟩
        intro a ha b hb; simp only [List.mem_singleton] at hb
        subst hb; rintro rfl; exact hk ha
      show addEntries (m ++ [(k, v)]) r = _
      rw [addEntries_eq r _ hn]
      simp

/-! ### `pad` -/

theorem splitlinesGo_plain : ∀ (s acc : Str), (∀ c ∈ s, isBreak c = true → c = '\n') →
    splitlinesGo acc s =
      match linesOf s with
      | [] => []
      | l :: ls => if ls.isEmpty && (acc.isEmpty && l.isEmpty) then [] else
          (acc.reverse ++ l) :: (if ls.getLast? = some [] then ls.dropLast else ls)
  | [], acc, _ => by cases acc <;> simp [splitlinesGo, linesOf]
  | c :: cs, acc, h => by
    have hc := h c (by simp)
    have hcs : ∀ c ∈ cs, isBreak c = true → c = '\n' := fun d hd => h d (by simp [hd])
    by_cases hn : c = '\n'
    · subst hn
      have e : splitlinesGo acc ('\n' :: cs) = acc.reverse :: splitlinesGo [] cs := by
        rw [splitlinesGo]; simp [isBreak]
        intro cs' h'; simp at h'
      rw [e, splitlinesGo_plain cs [] hcs]
      simp only [linesOf, if_true]
      cases hl : linesOf cs with
      | nil => cases cs with
        | nil => simp [linesOf] at hl
        | cons d ds =>
          simp only [linesOf] at hl; split at hl <;> (try simp at hl); split at hl <;> simp at hl
      | cons l ls =>
        cases ls with
        | nil => cases l <;> simp
        | cons l2 ls2 =>
          simp only [List.isEmpty_cons, Bool.false_and, Bool.false_eq_true, if_false, List.append_nil,
            List.reverse_nil, List.nil_append, List.getLast?_cons_cons, List.dropLast]
          split <;> simp
    · have hb : isBreak c = false := by
        cases hb : isBreak c
        · rfl
        · exact absurd (hc hb) hn
      have hr : c ≠ '\r' := by rintro rfl; simp [isBreak] at hb
      have e : splitlinesGo acc (c :: cs) = splitlinesGo (c :: acc) cs := by
        rw [splitlinesGo]
        · simp [hb]
        · intro cs' hc' ; exact absurd hc' hr
      rw [e, splitlinesGo_plain cs (c :: acc) hcs]
      simp only [linesOf, hn, if_false]
      cases hl : linesOf cs with
      | nil => cases cs with
        | nil => simp [linesOf] at hl
        | cons d ds =>
          simp only [linesOf] at hl; split at hl <;> (try simp at hl); split at hl <;> simp at hl
      | cons l ls => simp

theorem linesOf_ne_nil (s : Str) : linesOf s ≠ [] := by
  cases s with
  | nil => simp [linesOf]
  | cons d ds =>
    simp only [linesOf]; split
    · simp
    · split <;> simp

theorem linesOf_getLast : ∀ (s : Str), s.getLast? ≠ some '\n' → s ≠ [] →
    (linesOf s).getLast? ≠ some []
  | [], _, h => absurd rfl h
  | [c], h, _ => by
    have : c ≠ '\n' := by simpa using h
    simp [linesOf, this]
  | c :: d :: ds, h, _ => by
    have ih := linesOf_getLast (d :: ds) (by simpa using h) (by simp)
    rw [linesOf]
    split
    · cases hl : linesOf (d :: ds) with
      | nil => exact absurd hl (linesOf_ne_nil _)
      | cons l ls => rw [hl] at ih; simpa using ih
    · cases hl : linesOf (d :: ds) with
      | nil => exact absurd hl (linesOf_ne_nil _)
      | cons l ls =>
        rw [hl] at ih
        cases ls with
        | nil => simp
        | cons a as => simpa using ih

theorem splitlines_plain {s : Str} (h : Plain s) (hne : s ≠ []) : splitlines s = linesOf s := by
  rw [splitlines, splitlinesGo_plain s [] h.1]
  have hl := linesOf_getLast s h.2 hne
  cases e : linesOf s with
  | nil => exact absurd e (linesOf_ne_nil _)
  | cons l ls =>
    rw [e] at hl
    cases ls with
    | nil => 
      have : l ≠ [] := by simpa using hl
      simp [this]
    | cons a as => 
      simp only [List.getLast?_cons_cons] at hl
      simp [hl]

theorem join_linesOf (k : Nat) : ∀ s : Str, join ('\n' :: spaces k) (linesOf s) = indentBy k s
  | [] => by simp [linesOf, join, indentBy]
  | c :: cs => by
    have ih := join_linesOf k cs
    by_cases hc : c = '\n'
    · subst hc
      simp only [linesOf, if_true, indentBy]
      rw [join_cons_ne _ _ (linesOf_ne_nil cs), ih]; simp
    · have : indentBy k (c :: cs) = c :: indentBy k cs := by
        rw [indentBy]; exact fun h => hc h
      rw [this, ← ih]
      simp only [linesOf, hc, if_false]
      cases e : linesOf cs with
      | nil => exact absurd e (linesOf_ne_nil _)
      | cons l ls => simp [join_cons]

/-- `pad` is indentation on plain text. -/
theorem pad_plain {s : Str} (h : Plain s) (k : Nat) : pad s k = indentBy k s := by
  by_cases hne : s = []
  · subst hne; rfl
  · rw [pad, splitlines_plain h hne, join_linesOf]

end Treeno
