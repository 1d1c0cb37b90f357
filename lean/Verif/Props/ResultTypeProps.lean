import Verif.Spec.ResultTypes
import Verif.Lemmas.CheckEqs
import Verif.Props.NodeProps

/-!
# The types of function calls: property C64
-/
set_option autoImplicit false
namespace Treeno.Props
open Treeno

/-- The entry of a table. -/
def entry (l : List (Str × Spec.Result)) (n : Str) : Option Spec.Result := l.lookup n

theorem entry_mem : ∀ (l : List (Str × Spec.Result)), (l.map (·.1)).Nodup → ∀ n r, (n, r) ∈ l →
    entry l n = some r
  | [], _, _, _, h => by cases h
  | (m, s) :: l, hd, n, r, hmem => by
    obtain ⟨h1, h2⟩ := List.nodup_cons.1 hd
    unfold entry
    rw [List.lookup_cons]
    rcases List.mem_cons.1 hmem with e | h
    · cases e; simp
    · have : n ≠ m := by rintro rfl; exact h1 (List.mem_map.2 ⟨(n, r), h, rfl⟩)
      rw [beq_false_of_ne this]
      exact entry_mem l h2 n r h

theorem call_type {f : Fn} {as : List Expr} {ts : List Ty} {t : Ty} (hs : Expr.checks as = .ok ts)
    (h : (Expr.func f as).check = .ok t) : arityOk f.arity ts.length = true ∧ fnType f ts = .ok t := by
  rw [Expr_check_func, hs] at h
  have h : fnType f ts = .ok t := h
  refine ⟨?_, h⟩
  unfold fnType at h
  split at h
  · assumption
  · cases h

/-- **C64 partial.** The type of a call of a scalar function is the documented one.  Missing:
FROM_UNIXTIME, see `C64_unixtime_false`. -/
theorem C64_scalar_partial (f : Fn) (as : List Expr) (ts : List Ty) (t : Ty) (n : Str)
    (r : Spec.Result) (hs : Expr.checks as = .ok ts) (h : (Expr.func f as).check = .ok t)
    (hm : (n, r) ∈ Spec.scalarResults) (hf : f.name = n) (hn : n ∉ Spec.undocumented) :
    Spec.isResult Ty.sql ts t r := by
  obtain ⟨ha, h⟩ := call_type hs h
  have he := entry_mem _ (by decide +kernel) n r hm
  subst hf
  cases f <;> first
    | exact absurd (show _ ∈ Spec.undocumented by decide +kernel) hn
    | exact nomatch (show none = some r from he)
    | (obtain rfl := Option.some.inj (show some _ = some r from he)
       match ts, ha, h with
       | [], ha, h => first | exact Bool.noConfusion (show false = true from ha) | (cases h; first | rfl | (unfold Spec.isResult; decide +kernel))
       | [a], ha, h => first | exact Bool.noConfusion (show false = true from ha) | (cases h; first | rfl | decide +kernel)
       | [a, b], ha, h => first | exact Bool.noConfusion (show false = true from ha) | (cases h; first | rfl | decide +kernel)
       | [a, b, c], ha, h => first | exact Bool.noConfusion (show false = true from ha) | (cases h; first | rfl | decide +kernel)
       | a :: b :: c :: d :: l, ha, h => exact Bool.noConfusion (show false = true from ha))

theorem agg_call {f : Agg} {as : List Expr} {ob : List Ord} {fl : Option Expr} {w : Option Win}
    {ign : Bool} {ts : List Ty} {t : Ty} (hs : Expr.checks as = .ok ts)
    (h : (Expr.agg f as ob fl w ign).check = .ok t) :
    arityOk f.arity ts.length = true ∧ aggType f ts = .ok t := by
  rw [Expr_check_agg, hs] at h
  obtain ⟨_, -, h⟩ := bind_ok (show (Ord.checks ob >>= _) = _ from h)
  obtain ⟨_, -, h⟩ := bind_ok h
  obtain ⟨_, -, h⟩ := bind_ok h
  split at h
  · cases h
  refine ⟨?_, h⟩
  unfold aggType at h
  split at h
  · assumption
  · cases h

/-- **C64 partial.** The type of a call of an aggregate function is the documented one, whatever its
ORDER BY, FILTER and OVER.  Missing: the statistics that have no type at all, see
`C64_statistics_unknown`. -/
theorem C64_aggregate_partial (f : Agg) (as : List Expr) (ob : List Ord) (fl : Option Expr)
    (w : Option Win) (ign : Bool) (ts : List Ty) (t : Ty) (n : Str) (r : Spec.Result)
    (hs : Expr.checks as = .ok ts) (h : (Expr.agg f as ob fl w ign).check = .ok t)
    (hm : (n, r) ∈ Spec.aggregateResults) (hf : f.name = n) (hn : n ∉ Spec.undocumented) :
    Spec.isResult Ty.sql ts t r := by
  obtain ⟨ha, h⟩ := agg_call hs h
  have he := entry_mem _ (by decide +kernel) n r hm
  subst hf
  cases f <;> first
    | exact absurd (show _ ∈ Spec.undocumented by decide +kernel) hn
    | exact nomatch (show none = some r from he)
    | (obtain rfl := Option.some.inj (show some _ = some r from he)
       match ts, ha, h with
       | [], ha, h => exact Bool.noConfusion (show false = true from ha)
       | [a], ha, h => first | exact Bool.noConfusion (show false = true from ha) | (cases h; first | rfl | decide +kernel)
       | [a, b], ha, h => first | exact Bool.noConfusion (show false = true from ha) | (cases h; first | rfl | decide +kernel)
       | [a, b, c], ha, h => first | exact Bool.noConfusion (show false = true from ha) | (cases h; first | rfl | decide +kernel)
       | a :: b :: c :: d :: l, ha, h => exact Bool.noConfusion (show false = true from ha))

/-- **C64.** Aggregates that build containers: the element, key and value types are those of the
arguments. -/
theorem C64_containers (a b c : Ty) (x : Ty) :
    (aggType .arrayAgg [a] = .ok x → x = .array a) ∧
    (aggType .histogram [a] = .ok x → x = .map a .bigint) ∧
    (aggType .mapAgg [a, b] = .ok x → x = .map a b) ∧
    (aggType .multimapAgg [a, b] = .ok x → x = .map a (.array b)) ∧
    (aggType .approxMostFrequent [a, b, c] = .ok x → x = .map b .bigint) ∧
    (aggType .approxPercentile [a, .array b] = .ok x → x = .array a) ∧
    (aggType .qdigestAgg [a] = .ok x → x = .qdigest a) := by
  refine ⟨?_, ?_, ?_, ?_, ?_, ?_, ?_⟩ <;> intro h <;> cases h <;> rfl

/-- **C64.** MAX, MIN, MAX_BY and MIN_BY without a count return the type of their first argument. -/
theorem C64_extrema (a b x : Ty) :
    (aggType .max [a] = .ok x → x = a) ∧ (aggType .min [a] = .ok x → x = a) ∧
    (aggType .maxBy [a, b] = .ok x → x = a) ∧ (aggType .minBy [a, b] = .ok x → x = a) := by
  refine ⟨?_, ?_, ?_, ?_⟩ <;> intro h <;> cases h <;> rfl

/-- **C64 fails** for the forms with a count, which return an array of the largest values but are
given the type of one value. -/
theorem C64_extrema_count_false (a b n : Ty) :
    aggType .max [a, n] = .ok a ∧ aggType .min [a, n] = .ok a ∧
    aggType .maxBy [a, b, n] = .ok a ∧ aggType .minBy [a, b, n] = .ok a ∧ a ≠ .array a := by
  refine ⟨rfl, rfl, rfl, rfl, fun h => ?_⟩
  have := congrArg Ty.layers h
  rw [Ty.layers] at this
  omega

/-- **C64 fails** for SUM, which is BIGINT for every integral argument but is given the type of the
argument, so that its type cannot hold its value. -/
theorem C64_sum_false (t : Ty) : aggType .sum [t] = .ok t := rfl

/-- **C64 fails** for FROM_UNIXTIME of a number: its type is UNKNOWN, whatever the number. -/
theorem C64_unixtime_false (t z : Ty) (ht : t.typeName ≠ c% "TIMESTAMP") :
    fnType .fromUnixtime [t, z] = .ok .unknown := by
  cases t with
  | timestamp p y => exact absurd rfl ht
  | _ => rfl

/-- **C64 fails** for the statistics of one column: their type is UNKNOWN, not DOUBLE. -/
theorem C64_statistics_unknown (t : Ty) :
    ∀ f ∈ [Agg.skewness, .stddev, .stddevPop, .stddevSamp, .variance, .varPop, .varSamp],
      aggType f [t] = .ok .unknown := by
  intro f hf
  simp only [List.mem_cons, List.not_mem_nil, or_false] at hf
  rcases hf with rfl | rfl | rfl | rfl | rfl | rfl | rfl <;> rfl

/-- **C64 fails** for KURTOSIS, which takes one column but can only be built with two. -/
theorem C64_kurtosis_refused (e : Expr) (ob : List Ord) (fl : Option Expr) (w : Option Win)
    (ign : Bool) (t : Ty) : (Expr.agg .kurtosis [e] ob fl w ign).check ≠ .ok t := by
  intro h
  have h' := h
  rw [Expr_check_agg] at h'
  obtain ⟨ts, hs, -⟩ := bind_ok h'
  have hl : ts.length = 1 := by
    rw [Expr_checks_cons] at hs
    obtain ⟨_, -, hs⟩ := bind_ok hs
    obtain ⟨_, hn, hs⟩ := bind_ok hs
    cases hn
    cases hs
    rfl
  have := (agg_call hs h).1
  rw [hl] at this
  cases this

/-- Calls the theorems above speak of: a length, a truncated date, a filtered count, a histogram. -/
theorem C64_reached :
    (Expr.func .length [.lit none (.varchar none)]).check = .ok .bigint ∧
    (Expr.func .dateTrunc [.lit none (.varchar none), .lit none (.simple .date)]).check =
      .ok (.simple .date) ∧
    (Expr.agg .count [.star none .unknown] [] (some (.lit none .boolean)) none false).check =
      .ok .bigint ∧
    (Expr.agg .numericHistogram [.lit none .bigint, .lit none .double] [] none none false).check =
      .ok (.map .double .double) := by
  refine ⟨?_, ?_, ?_, ?_⟩ <;> rfl

end Treeno.Props
