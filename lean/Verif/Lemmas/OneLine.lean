import Verif.Spec.Strings
import Verif.Sql
import Verif.Lemmas.SqlEqs
import Verif.Lemmas.Printer
import Verif.Lemmas.Digits
import Verif.Lemmas.TypeText
/-!
# Text without line breaks
-/
namespace Treeno
open Spec

/-- No line-break character (as of Python's `splitlines`). -/
def nb (s : Str) : Prop := s.all (fun c => !isBreak c) = true

instance (s : Str) : Decidable (nb s) := inferInstanceAs (Decidable (_ = true))

theorem nb_nil : nb [] := rfl
theorem nb_app {a b : Str} (ha : nb a) (hb : nb b) : nb (a ++ b) := by
  unfold nb at *; simp [ha, hb]
theorem nb_cons {c : Char} {s : Str} (hc : isBreak c = false) (hs : nb s) : nb (c :: s) := by
  unfold nb at *; simp [hc, hs]
theorem nb_ite {p : Prop} [Decidable p] {a b : Str} (ha : nb a) (hb : nb b) : nb (if p then a else b) := by
  split <;> assumption
theorem nb_of_mem {s : Str} (h : ∀ c ∈ s, isBreak c = false) : nb s := by
  unfold nb; rw [List.all_eq_true]; intro c hc; simp [h c hc]
theorem nb_mem {s : Str} (h : nb s) : ∀ c ∈ s, isBreak c = false := by
  unfold nb at h; rw [List.all_eq_true] at h; intro c hc; simpa using h c hc

theorem nb_join {sep : Str} (hs : nb sep) : ∀ {l : List Str}, (∀ s ∈ l, nb s) → nb (join sep l)
  | [], _ => nb_nil
  | [x], h => h x (by simp)
  | x :: y :: l, h => by
    have := nb_join hs (l := y :: l) (fun s hs => h s (List.mem_cons_of_mem _ hs))
    exact nb_app (nb_app (h x (by simp)) hs) this

theorem isDigit_nb {c : Char} (h : isDigit c = true) : isBreak c = false := by
  have h2 := isDigit_bound h
  have key : ∀ m, 48 ≤ m → m ≤ 57 → isBreak (Char.ofNat m) = false := by
    intro m h1 h2
    have : m = 48 ∨ m = 49 ∨ m = 50 ∨ m = 51 ∨ m = 52 ∨ m = 53 ∨ m = 54 ∨ m = 55 ∨ m = 56 ∨ m = 57 := by
      omega
    rcases this with h | h | h | h | h | h | h | h | h | h <;> subst h <;> decide
  have := key c.toNat h2.1 h2.2
  rwa [Char.ofNat_toNat] at this

theorem nb_nat (n : Nat) : nb (natStr n) := nb_of_mem fun c hc => isDigit_nb (natStr_digits n c hc)
theorem nb_int (n : Int) : nb (intStr n) := by
  cases n with
  | ofNat k => exact nb_nat k
  | negSucc k => exact nb_cons (by decide) (nb_nat _)

theorem nb_replicate (n : Nat) (c : Char) (h : isBreak c = false) : nb (List.replicate n c) :=
  nb_of_mem fun d hd => by rw [List.eq_of_mem_replicate hd]; exact h

theorem nb_take {s : Str} (h : nb s) (n : Nat) : nb (s.take n) :=
  nb_of_mem fun c hc => nb_mem h c (List.mem_of_mem_take hc)
theorem nb_drop {s : Str} (h : nb s) (n : Nat) : nb (s.drop n) :=
  nb_of_mem fun c hc => nb_mem h c (List.mem_of_mem_drop hc)

theorem nb_dec (d : Dec) : nb d.str := by
  have hn := nb_nat d.coeff
  have hz : ∀ n, nb (List.replicate n '0') := fun n => nb_replicate n '0' (by decide)
  have hexp : ∀ n : Int, nb ('E' :: plusD n) := by
    intro n
    refine nb_cons (by decide) ?_
    unfold plusD
    split
    · exact nb_int n
    · exact nb_cons (by decide) (nb_int n)
  have hp : ∀ dp len : Int,
      nb (if dp ≤ 0 then (c% "0", c% "." ++ List.replicate (-dp).toNat '0' ++ natStr d.coeff)
        else if dp ≥ len then (natStr d.coeff ++ List.replicate (dp - len).toNat '0', [])
        else ((natStr d.coeff).take dp.toNat, c% "." ++ (natStr d.coeff).drop dp.toNat)).1 ∧
      nb (if dp ≤ 0 then (c% "0", c% "." ++ List.replicate (-dp).toNat '0' ++ natStr d.coeff)
        else if dp ≥ len then (natStr d.coeff ++ List.replicate (dp - len).toNat '0', [])
        else ((natStr d.coeff).take dp.toNat, c% "." ++ (natStr d.coeff).drop dp.toNat)).2 := by
    intro dp len
    split
    · exact ⟨show nb (c% "0") by decide, nb_app (nb_app (by decide) (hz _)) hn⟩
    · split
      · exact ⟨nb_app hn (hz _), nb_nil⟩
      · exact ⟨nb_take hn _, nb_app (by decide) (nb_drop hn _)⟩
  unfold Dec.str
  exact nb_app (nb_app (nb_app (nb_ite (by decide) nb_nil) (hp _ _).1) (hp _ _).2) (nb_ite nb_nil (hexp _))

theorem nb_suffix (p : Option Int) (z : Bool) : nb (timeSuffix p z) := by
  unfold timeSuffix
  refine nb_app ?_ (nb_ite (by decide) nb_nil)
  cases p with
  | none => exact nb_nil
  | some n => exact nb_app (nb_app (by decide) (nb_int n)) (by decide)

mutual
theorem nb_ty : ∀ t : Ty, nb t.sql
  | .simple s => by cases s <;> decide
  | .decimal p s => nb_app (nb_app (nb_app (nb_app (by decide) (nb_int p)) (by decide)) (nb_int s)) (by decide)
  | .varchar none => by decide
  | .varchar (some n) => by
    show nb (_ ++ intStr n ++ _)
    exact nb_app (nb_app (by decide) (nb_int n)) (by decide)
  | .char n => nb_app (nb_app (by decide) (nb_int n)) (by decide)
  | .time p z => nb_app (by decide) (nb_suffix p z)
  | .timestamp p z => nb_app (by decide) (nb_suffix p z)
  | .interval k => by cases k <;> decide
  | .array t => nb_app (nb_app (by decide) (nb_ty t)) (by decide)
  | .map a b => nb_app (nb_app (nb_app (nb_app (by decide) (nb_ty a)) (by decide)) (nb_ty b)) (by decide)
  | .row l => nb_app (nb_app (by decide) (nb_join (by decide) (nb_tys l))) (by decide)
  | .qdigest t => nb_app (nb_app (by decide) (nb_ty t)) (by decide)
theorem nb_tys : ∀ l : List Ty, ∀ s ∈ Ty.sqlList l, nb s
  | [], s, h => by cases h
  | t :: r, s, h => by
    rcases List.mem_cons.mp h with rfl | h
    · exact nb_ty t
    · exact nb_tys r s h
end

/-- Padding does not change text without line breaks. -/
theorem pad_nb {s : Str} (h : nb s) (n : Nat) : pad s n = s := by
  have hp : Plain s := by
    refine ⟨fun c hc hb => ?_, fun hl => ?_⟩
    · rw [nb_mem h c hc] at hb; cases hb
    · have := nb_mem h _ (List.mem_of_getLast? hl)
      revert this; decide
  rw [pad_plain hp]
  have : ∀ s : Str, nb s → indentBy n s = s := by
    intro s
    induction s with
    | nil => intro _; rfl
    | cons c cs ih =>
      intro h
      have hc := nb_mem h c (by simp)
      rw [indentBy, ih (nb_of_mem fun d hd => nb_mem h d (List.mem_cons_of_mem _ hd))]
      rintro rfl
      exact absurd hc (by decide)
  exact this s h

theorem nb_pad {s : Str} (h : nb s) (n : Nat) : nb (pad s n) := by rw [pad_nb h]; exact h

theorem nb_quoteIdent {s : Str} (h : nb s) : nb (quoteIdent s) := nb_app (nb_app (by decide) h) (by decide)
theorem nb_quoteLit {s : Str} (h : nb s) : nb (quoteLit s) := nb_app (nb_app (by decide) h) (by decide)
theorem nb_parenS {s : Str} (h : nb s) : nb (parenS s) := nb_app (nb_app (by decide) h) (by decide)

theorem nb_chain {ids : List (Option Str)} (h : ∀ x ∈ ids, optAll nb x) : nb (chainIdents ids) := by
  apply nb_join (by decide)
  intro s hs
  obtain ⟨n, hn, rfl⟩ := List.mem_map.mp hs
  obtain ⟨a, ha, e⟩ := List.mem_filterMap.mp hn
  have := h a ha
  rw [show a = some n from e] at this
  exact nb_quoteIdent this

theorem nb_truthy {t : Option Str} (h : optAll nb t) : optAll nb (truthy t) := by
  match t, h with
  | none, _ => trivial
  | some [], _ => trivial
  | some (_ :: _), h => exact h

theorem nb_lit {v : Option Scalar} (h : scalarAll nb v) : nb (litText v) := by
  match v, h with
  | none, _ => decide
  | some (.bool b), _ => cases b <;> decide
  | some (.int n), _ => exact nb_int n
  | some (.float r), h => exact h
  | some (.dec d), _ => exact nb_dec d
  | some (.str s), h => exact nb_quoteLit h

theorem nb_table {t : TableRef} (h : tableAll nb t) : nb t.sql := by
  apply nb_chain
  intro x hx
  simp only [List.mem_cons, List.not_mem_nil, or_false] at hx
  rcases hx with rfl | rfl | rfl
  · exact h.2.2
  · exact h.2.1
  · exact h.1

section
variable {o : Opts} (ho : o.mode = .default)
include ho

theorem nb_joinStmts {ss : List Str} {d s : Str} (hd : nb d) (h : ∀ s ∈ ss, nb s)
    (hs : joinStmts ss o d = .ok s) : nb s := by
  unfold joinStmts joinPrinter at hs
  split at hs
  · rw [ho, joinLoop_default] at hs
    cases hs
    exact nb_join hd h
  · cases hs

theorem nb_spacing : nb (spacing o) := by unfold spacing; rw [ho]; decide

theorem nb_print {river : Bool} {es : Entries} {s : Str} (h : ∀ e ∈ es, nb e.1 ∧ nb e.2)
    (hs : printEntries river es o = .ok s) : nb s := by
  unfold printEntries at hs
  rw [show addEntries [] es = _ from addEntries_eq es [] (by simp)] at hs
  split at hs
  · cases hs
    unfold stmtString
    split
    · exact nb_nil
    · apply nb_join
      · rw [ho]; decide
      · intro s hs
        obtain ⟨e, he, rfl⟩ := List.mem_map.mp hs
        have := h e he
        unfold stmtLine
        rw [ho]
        simp only [reduceCtorEq, false_and, if_false]
        exact nb_ite this.1 (nb_app (nb_app this.1 (by decide)) this.2)
  · cases hs

theorem nb_relStr {p n : Bool} {s : Str} (h : nb s) : nb (relStr o p n s) := by
  unfold relStr
  rw [ho]
  simp only [reduceCtorEq, false_and, if_false, List.nil_append]
  exact nb_ite (nb_parenS h) h

theorem nb_listEntry {k pre : Str} {ss : List Str} {es : Entries} (hk : nb k) (hp : nb pre)
    (h : ∀ s ∈ ss, nb s) (hs : listEntry o k pre ss = .ok es) : ∀ e ∈ es, nb e.1 ∧ nb e.2 := by
  unfold listEntry at hs
  split at hs
  · cases hs; simp
  · obtain ⟨j, hj, hs⟩ := bind_ok hs
    cases hs
    intro e he
    simp only [List.mem_singleton] at he
    subst he
    exact ⟨hk, nb_app hp (nb_joinStmts ho (by decide) h hj)⟩

theorem nb_setText {ss : List Str} {s : Str} (h : ∀ s ∈ ss, nb s) (hs : setText o ss = .ok s) : nb s := by
  match ss, h, hs with
  | [x], h, hs => exact h s (by cases hs; simp)
  | [], h, hs =>
    obtain ⟨j, hj, hs⟩ := bind_ok hs
    cases hs
    exact nb_app (nb_app (by decide) (nb_joinStmts ho (by decide) h hj)) (by decide)
  | x :: y :: l, h, hs =>
    obtain ⟨j, hj, hs⟩ := bind_ok hs
    cases hs
    exact nb_app (nb_app (by decide) (nb_joinStmts ho (by decide) h hj)) (by decide)

theorem nb_cols {pre post : Str} {cols : List Str} {s : Str} (h1 : nb pre) (h2 : nb post)
    (h : strsAll nb cols) (hs : colsText o pre post cols = .ok s) : nb s := by
  unfold colsText at hs
  split at hs
  · cases hs; exact nb_nil
  · obtain ⟨j, hj, hs⟩ := bind_ok hs
    cases hs
    exact nb_app (nb_app h1 (nb_joinStmts ho (by decide) h hj)) h2

theorem nb_orderBy {os : List Str} {s : Str} (h : ∀ s ∈ os, nb s) (hs : orderByText o os = .ok s) : nb s := by
  unfold orderByText at hs
  split at hs
  · cases hs
  · obtain ⟨j, hj, hs⟩ := bind_ok hs
    cases hs
    exact nb_app (by decide) (nb_joinStmts ho (by decide) h hj)

theorem nb_aggArgs {a : Str} {os : List Str} {s : Str} (ha : nb a) (h : ∀ s ∈ os, nb s)
    (hs : aggArgs o a os = .ok s) : nb s := by
  unfold aggArgs at hs
  split at hs
  · cases hs; exact ha
  · obtain ⟨j, hj, hs⟩ := bind_ok hs
    have hj' := nb_orderBy ho h hj
    refine nb_joinStmts ho (by decide) ?_ hs
    intro s hs
    simp only [List.mem_cons, List.not_mem_nil, or_false] at hs
    rcases hs with rfl | rfl <;> assumption

theorem nb_listaggArgs {a sep : Str} {ov : Option (Str × Bool)} {s : Str} (ha : nb a) (hsep : nb sep)
    (hov : overflowAll nb ov) (hs : listaggArgs o a sep ov = .ok s) : nb s := by
  unfold listaggArgs at hs
  obtain ⟨a', h1, hs⟩ := bind_ok hs
  have ha' : nb a' := by
    unfold sepArgs at h1
    split at h1
    · refine nb_joinStmts ho (by decide) ?_ h1
      intro s hs
      simp only [List.mem_cons, List.not_mem_nil, or_false] at hs
      rcases hs with rfl | rfl
      · exact ha
      · exact nb_quoteLit hsep
    · cases h1; exact ha
  cases ov with
  | none => cases hs; exact ha'
  | some f =>
    refine nb_joinStmts ho (by decide) ?_ hs
    intro s hs
    simp only [List.mem_cons, List.not_mem_nil, or_false] at hs
    rcases hs with rfl | rfl
    · exact ha'
    · exact nb_app (nb_app (by decide) (nb_quoteLit hov)) (nb_ite (by decide) (by decide))

theorem nb_binText {neg : Bool} {op : BinOp} {a b : Str} (ha : nb a) (hb : nb b) : nb (binText o neg op a b) := by
  have := nb_spacing ho
  cases op <;> first
    | exact nb_app (nb_app ha (by decide)) hb
    | exact nb_app (nb_app (nb_app ha this) (by decide)) hb
    | exact nb_app (nb_app ha (nb_ite (by decide) (by decide))) hb

end

theorem nb_pemdas {c v : Option Nat} {l : Bool} {s d : Except Err Str} {r : Str}
    (hs : ∀ x, s = .ok x → nb x) (hd : ∀ x, d = .ok x → nb x) (h : pemdas c v l s d = .ok r) : nb r := by
  have hp : parenS <$> d = .ok r → nb r := by
    intro h
    cases d with
    | error e => cases h
    | ok x => cases h; exact nb_parenS (hd x rfl)
  unfold pemdas at h
  split at h
  · split at h
    · split at h
      · exact hs _ h
      · exact hp h
    · split at h
      · exact hp h
      · exact hs _ h
  · exact hs _ h

theorem nb_optText {pre : Str} {s : Option Str} (hp : nb pre) (hs : optAll nb s) : nb (optText pre s) := by
  cases s with
  | none => exact nb_nil
  | some s => exact nb_app hp hs

theorem nb_star {t : Option Str} (h : optAll nb t) : nb (starPrefix t) := by
  have := nb_truthy h
  unfold starPrefix
  split
  · rename_i e; rw [e] at this; exact nb_app this (by decide)
  · exact nb_nil

theorem nb_fnName (f : Fn) : nb f.name := by cases f <;> decide
theorem nb_aggName (f : Agg) : nb f.name := by cases f <;> decide

end Treeno
