import Verif.Lemmas.Types
/-!
# Data types: properties C02 and C03
-/
set_option autoImplicit false
namespace Treeno.Props
open Treeno Spec

/-! ## C02: only valid types exist -/

/-- **C02.** Building a type from a name and a parameter dictionary yields `t` exactly when `t` has
that name in upper case, its values are in range, and the dictionary describes it: every supplied
parameter is a parameter of `t` with the supplied value and every other parameter has its default. -/
theorem C02_construction (name : Str) (supplied : List (Str × PVal)) (t : Ty) :
    mkType name supplied = .ok t ↔
      t.typeName = upper name ∧ InRange t ∧ Describes supplied t :=
  mkType_ok_iff name supplied t

/-- **C02.** The name of a constructed type is one of the supported names. -/
theorem C02_name_supported {name : Str} {supplied : List (Str × PVal)} {t : Ty}
    (h : mkType name supplied = .ok t) : upper name ∈ allowedTypes := by
  have := (mkType_ok_iff name supplied t).1 h
  exact this.1 ▸ typeName_allowed t

/-- **C02.** Every unsupported name is refused. -/
theorem C02_name_refused (name : Str) (supplied : List (Str × PVal))
    (h : upper name ∉ allowedTypes) : mkType name supplied = .error .assertion := by
  unfold mkType
  rw [if_neg h]

theorem paramNames_spec (tn : Str) : paramNames tn = declaredParams tn := by
  unfold paramNames fieldsOf declaredParams
  simp only [apply_ite (List.map TypeParam.name), List.map]

/-- **C02.** An undeclared parameter is always refused. -/
theorem C02_unknown_parameter_refused (name k : Str) (v : PVal) (supplied : List (Str × PVal))
    (hk : k ∉ declaredParams (upper name)) (hs : dget k supplied = some v) :
    ∃ e, mkType name supplied = .error e := by
  cases h : mkType name supplied with
  | error e => exact ⟨e, rfl⟩
  | ok t =>
    obtain ⟨h1, _, h3⟩ := (mkType_ok_iff name supplied t).1 h
    have := h3 k
    rw [hs] at this
    dsimp only at this
    rw [params_only t k (by rw [h1, paramNames_spec]; exact hk)] at this
    simp at this

/-- **C02.** The name is case-insensitive. -/
theorem C02_case_insensitive (name name' : Str) (supplied : List (Str × PVal))
    (h : upper name = upper name') : mkType name supplied = mkType name' supplied :=
  mkType_congr h (fun _ => rfl)

/-- **C02.** Rebuilding a type from its own name and parameters gives an equal type. -/
theorem C02_rebuild (name : Str) (supplied : List (Str × PVal)) (t : Ty)
    (h : mkType name supplied = .ok t) : mkType t.typeName t.params = .ok t := by
  rw [mkType_ok_iff] at h ⊢
  exact ⟨(upper_typeName t).symm, h.2.1, describes_self t⟩

/-- **C02.** If the component types supplied are valid at every depth, so is the constructed type. -/
theorem C02_valid {name : Str} {supplied : List (Str × PVal)} {t : Ty}
    (h : mkType name supplied = .ok t) (hs : ∀ k v, dget k supplied = some v → PValOk v) :
    Valid t := mkType_valid h hs

-- non-vacuity: a lower-case name, one parameter defaulted, nested component
example : mkType (c% "decimal") [(c% "scale", .int 3)] = .ok (.decimal 38 3) := by decide
example : mkType (c% "Array") [(c% "dtype", .dtype (.timestamp (some 3) true))] =
    .ok (.array (.timestamp (some 3) true)) := by decide
example : mkType (c% "DECIMAL") [(c% "precision", .int 39)] = .error .assertion := by decide
example : mkType (c% "TIME") [(c% "precision", .int 13)] = .error .assertion := by decide
example : mkType (c% "INTEGER") [(c% "precision", .int 3)] = .error .assertion := by decide
example : mkType (c% "FOO") [] = .error .assertion := by decide

/-! ## C03: parameter order is irrelevant -/

/-- **C03.** Permuting the supplied parameters (distinct keys, as in any dictionary) changes neither
whether construction succeeds nor its result. -/
theorem C03_order_irrelevant (name : Str) (ps qs : List (Str × PVal)) (h : ps.Perm qs)
    (hn : (ps.map Prod.fst).Nodup) : mkType name ps = mkType name qs :=
  mkType_congr rfl (dget_perm h hn)

/-- **C03.** Nor does it change the printed text. -/
theorem C03_order_irrelevant_text (name : Str) (ps qs : List (Str × PVal)) (h : ps.Perm qs)
    (hn : (ps.map Prod.fst).Nodup) :
    (mkType name ps).map Ty.sql = (mkType name qs).map Ty.sql := by
  rw [C03_order_irrelevant name ps qs h hn]

example : mkType (c% "DECIMAL") [(c% "precision", .int 5), (c% "scale", .int 2)] = .ok (.decimal 5 2) ∧
    mkType (c% "DECIMAL") [(c% "scale", .int 2), (c% "precision", .int 5)] = .ok (.decimal 5 2) := by
  decide

end Treeno.Props
