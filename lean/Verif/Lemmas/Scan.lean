import Verif.Lemmas.BalanceWf
import Verif.Lemmas.Stops
/-!
# Looking for the closing parenthesis
-/
set_option linter.unusedSimpArgs false
set_option linter.unusedVariables false
namespace Treeno
open Spec

theorem scan_cons (d : Nat) (t : Tok) (ts : List Tok) : scanClose d (t :: ts) =
    if t.isSym (c% "(") then scanClose (d + 1) ts
    else if t.isSym (c% ")") then (match d with
      | 0 => some ts
      | d + 1 => scanClose d ts)
    else scanClose d ts := by
  cases d <;> rfl

/-- Tokens after the closing parenthesis do not matter. -/
theorem scan_app : ∀ {ts : List Tok} {d : Nat} {r : List Tok} (X : List Tok), scanClose d ts = some r →
    scanClose d (ts ++ X) = some (r ++ X)
  | [], d, r, X, h => by simp [scanClose] at h
  | t :: ts, d, r, X, h => by
    rw [List.cons_append, scan_cons]
    rw [scan_cons] at h
    split
    · rename_i h1
      rw [if_pos h1] at h
      exact scan_app X h
    · rename_i h1
      rw [if_neg h1] at h
      split
      · rename_i h2
        rw [if_pos h2] at h
        cases d with
        | zero => simp only [Option.some.injEq] at h ⊢; rw [h]
        | succ d => exact scan_app X h
      · rename_i h2
        rw [if_neg h2] at h
        exact scan_app X h

/-- Closing one more: first close the inner ones. -/
theorem scan_succ : ∀ {ts : List Tok} {k d : Nat} {r : List Tok}, scanClose (k + d + 1) ts = some r →
    ∃ r1, scanClose k ts = some r1 ∧ scanClose d r1 = some r
  | [], k, d, r, h => by simp [scanClose] at h
  | t :: ts, k, d, r, h => by
    rw [scan_cons] at h
    rw [scan_cons]
    split
    · rename_i h1
      rw [if_pos h1] at h
      exact scan_succ (k := k + 1) (by rw [show k + 1 + d + 1 = k + d + 1 + 1 by omega]; exact h)
    · rename_i h1
      rw [if_neg h1] at h
      split
      · rename_i h2
        rw [if_pos h2] at h
        cases k with
        | zero => exact ⟨ts, rfl, by simpa using h⟩
        | succ k => exact scan_succ (by rw [show k + d + 1 = k + 1 + d by omega]; exact h)
      · rename_i h2
        rw [if_neg h2] at h
        exact scan_succ h

/-- Without a closing parenthesis the depth only grows. -/
theorem scan_none : ∀ {ts : List Tok} {d : Nat}, scanClose d ts = none →
    ∃ d', ∀ k rest, scanClose (d + k) (ts ++ rest) = scanClose (d' + k) rest
  | [], d, h => ⟨d, fun _ _ => rfl⟩
  | t :: ts, d, h => by
    rw [scan_cons] at h
    split at h
    · rename_i h1
      obtain ⟨d', hd⟩ := scan_none h
      refine ⟨d', fun k rest => ?_⟩
      rw [List.cons_append, scan_cons, if_pos h1, show d + k + 1 = d + 1 + k by omega]
      exact hd k rest
    · rename_i h1
      split at h
      · rename_i h2
        cases d with
        | zero => simp at h
        | succ d =>
          obtain ⟨d', hd⟩ := scan_none (ts := ts) (d := d) h
          refine ⟨d', fun k rest => ?_⟩
          rw [List.cons_append, scan_cons, if_neg h1, if_pos h2, show d + 1 + k = d + k + 1 by omega]
          exact hd k rest
      · rename_i h2
        obtain ⟨d', hd⟩ := scan_none h
        refine ⟨d', fun k rest => ?_⟩
        rw [List.cons_append, scan_cons, if_neg h1, if_neg h2]
        exact hd k rest

/-- A balanced run of tokens that starts with a parenthesis closes it. -/
theorem Bal.closed {u : List Tok} (h : Bal (symT (c% "(") :: u)) : ∃ r, scanClose 0 u = some r := by
  cases hs : scanClose 0 u with
  | some r => exact ⟨r, rfl⟩
  | none =>
    exfalso
    obtain ⟨d', hd⟩ := scan_none hs
    have h1 := hd 1 [symT (c% ")")]
    have h2 := h 0 [symT (c% ")")]
    rw [List.cons_append, scan_lpar] at h2
    rw [h1, scan_rpar, scan_rpar0] at h2
    simp [scanClose] at h2

/-- How deep the parentheses are after the tokens, if all that were open stay open. -/
def depth : Nat → List Tok → Option Nat
  | d, [] => some d
  | d, t :: ts =>
    if t.isSym (c% "(") then depth (d + 1) ts
    else if t.isSym (c% ")") then (match d with
      | 0 => none
      | d + 1 => depth d ts)
    else depth d ts

theorem depth_cons (d : Nat) (t : Tok) (ts : List Tok) : depth d (t :: ts) =
    if t.isSym (c% "(") then depth (d + 1) ts
    else if t.isSym (c% ")") then (match d with
      | 0 => none
      | d + 1 => depth d ts)
    else depth d ts := by
  cases d <;> rfl

theorem depth_some : ∀ {ts : List Tok} {d d' : Nat}, depth d ts = some d' → ∀ rest,
    scanClose d (ts ++ rest) = scanClose d' rest
  | [], d, d', h, rest => by simp only [depth, Option.some.injEq] at h; rw [h]; rfl
  | t :: ts, d, d', h, rest => by
    rw [depth_cons] at h
    rw [List.cons_append, scan_cons]
    split
    · rename_i h1; rw [if_pos h1] at h; exact depth_some h rest
    · rename_i h1
      rw [if_neg h1] at h
      split
      · rename_i h2
        rw [if_pos h2] at h
        cases d with
        | zero => simp at h
        | succ d => exact depth_some (ts := ts) h rest
      · rename_i h2; rw [if_neg h2] at h; exact depth_some h rest

theorem depth_none : ∀ {ts : List Tok} {d : Nat}, depth d ts = none → ∃ r, scanClose d ts = some r
  | [], d, h => by simp [depth] at h
  | t :: ts, d, h => by
    rw [depth_cons] at h
    rw [scan_cons]
    split
    · rename_i h1; rw [if_pos h1] at h; exact depth_none h
    · rename_i h1
      rw [if_neg h1] at h
      split
      · rename_i h2
        rw [if_pos h2] at h
        cases d with
        | zero => exact ⟨ts, rfl⟩
        | succ d => exact depth_none (ts := ts) h
      · rename_i h2; rw [if_neg h2] at h; exact depth_none h

theorem scan_close (d : Nat) : ∀ k, scanClose k (List.replicate (d + 1) (symT (c% ")"))) = some [] ↔ k = d := by
  induction d with
  | zero =>
    intro k
    show scanClose k [symT (c% ")")] = some [] ↔ k = 0
    cases k with
    | zero => simp [scan_rpar0]
    | succ k => rw [scan_rpar]; simp [scanClose]
  | succ d ih =>
    intro k
    rw [List.replicate_succ]
    cases k with
    | zero => rw [scan_rpar0]; simp [List.replicate_succ]
    | succ k => rw [scan_rpar, ih k]; omega

theorem bal_iff {ts : List Tok} : Bal ts ↔ ∀ d, depth d ts = some d := by
  constructor
  · intro h d
    cases hd : depth d ts with
    | none =>
      obtain ⟨r, hr⟩ := depth_none hd
      have := h d []
      rw [List.append_nil, hr] at this
      simp [scanClose] at this
    | some d' =>
      have h1 := depth_some hd (List.replicate (d + 1) (symT (c% ")")))
      rw [h d, (scan_close d d).2 rfl] at h1
      rw [(scan_close d d').1 h1.symm]
  · intro h d rest
    exact depth_some (h d) rest

theorem canon_isSym (s : Str) (t : Tok) : (canon t).isSym s = t.isSym s := by
  unfold canon
  split
  · rename_i h; simp only [Tok.isSym, h]; rfl
  · rfl

theorem depth_canon : ∀ {a b : List Tok} (d : Nat), a.map canon = b.map canon → depth d a = depth d b
  | [], [], d, _ => rfl
  | t :: a, [], d, h => by simp at h
  | [], t :: a, d, h => by simp at h
  | t :: a, u :: b, d, h => by
    simp only [List.map_cons, List.cons.injEq] at h
    obtain ⟨h1, h2⟩ := h
    have hs : ∀ s, t.isSym s = u.isSym s := fun s => by rw [← canon_isSym s t, h1, canon_isSym]
    rw [depth_cons, depth_cons, hs, hs, depth_canon (d + 1) h2, depth_canon d h2]
    cases d with
    | zero => rfl
    | succ d => simp only [depth_canon d h2]

theorem Bal.canon {a b : List Tok} (h : a.map canon = b.map canon) (hb : Bal b) : Bal a := by
  rw [bal_iff] at hb ⊢
  intro d
  rw [depth_canon d h, hb d]

/-- The parser reads a balanced run of tokens. -/
theorem Spec.Reads.bal {y ts rest : List Tok} (h : Reads y ts rest) (hy : Bal y) : ∃ used, ts = used ++ rest ∧ Bal used := by
  obtain ⟨used, h1, h2⟩ := h
  exact ⟨used, h1, Bal.canon h2 hy⟩

theorem Spec.Reads.suffix {y ts rest : List Tok} (h : Reads y ts rest) : rest <:+ ts := by
  obtain ⟨used, h1, h2⟩ := h
  exact ⟨used, h1.symm⟩

theorem Spec.Reads.scan {y ts rest rest' : List Tok} (h : Reads y ts rest) (hy : Bal y) (hs : sym (c% ")") rest = some rest') :
    scanClose 0 ts = some rest' := by
  obtain ⟨used, rfl, hb⟩ := h.bal hy
  rw [hb]
  cases rest with
  | nil => simp [sym] at hs
  | cons t ts =>
    rw [sym] at hs
    split at hs
    · rename_i ht
      rw [isSym_eq ht, scan_rpar0]; exact hs
    · simp at hs

theorem CE.yield_ne_nil (c : CE) : c.yield ≠ [] := by
  cases c
  case str s => rw [CE_yield_str]; obtain t | ⟨t, _ | e⟩ := s <;> simp [CStr.yield]
  all_goals simp [CE_yield_or_, CE_yield_and_, CE_yield_not_, CE_yield_cmp, CE_yield_between, CE_yield_inList, CE_yield_inSub, CE_yield_like, CE_yield_isNull, CE_yield_distinct, CE_yield_quantified, CE_yield_concat, CE_yield_arith, CE_yield_sign, CE_yield_atZone, CE_yield_null, CE_yield_interval, CE_yield_typeCtor, CE_yield_doublePrecision, CE_yield_num, CE_yield_bool, CE_yield_binary, CE_yield_param, CE_yield_row, CE_yield_rowKw, CE_yield_listagg, CE_yield_callStar, CE_yield_call, CE_yield_lam, CE_yield_sub, CE_yield_case, CE_yield_cast, CE_yield_array, CE_yield_subscript, CE_yield_col, CE_yield_deref, CE_yield_dateTime, CE_yield_session, CE_yield_normalize, CE_yield_paren, CE_yield_exists_, CE_yield_position, CE_yield_substring, CE_yield_extract, CE_yield_trimFrom, CE_yield_trim, CE_yield_grouping, inParens]

end Treeno
