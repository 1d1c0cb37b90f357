import Verif.Lemmas.TextInj
import Verif.Lemmas.TypeText
/-!
# C01: the text of a data type; C53 (types): what the type parser accepts
-/
set_option autoImplicit false
namespace Treeno.Props
open Treeno Spec

/-! ## C01: printing a type and reading the text back gives the same type -/

/-- **C01.** The text of a valid type without negative lengths or scales and without an empty ROW
(at any depth) is read back as that very type.  Missing from the full claim: the types of
`C01_negative_scale_fails`, `C01_negative_length_fails` and `C01_empty_row_fails`, which the library
lets one construct. -/
theorem C01_round_trip_partial (t : Ty) (hv : Valid t) (hr : Readable t) : typeFromSql t.sql = .ok t :=
  typeFromSql_sql t hv hr

-- a valid, readable type of depth three using most constructors
example : ∃ t : Ty, Valid t ∧ Readable t ∧
    t = .row [.map (.varchar (some 3)) (.decimal 10 2), .array (.timestamp (some 3) true),
      .interval .dayToSecond, .qdigest (.simple .double), .char 7, .time none true] := by
  refine ⟨_, ?_, ?_, rfl⟩
  · apply Valid.row
    intro t ht
    simp only [List.mem_cons, List.not_mem_nil, or_false] at ht
    rcases ht with rfl | rfl | rfl | rfl | rfl | rfl
    · exact .map _ _ (.varchar _) (.decimal _ _ (by omega) (by omega))
    · exact .array _ (.timestamp _ _ (by rintro q ⟨⟩; omega))
    · exact .interval _
    · exact .qdigest _ (.simple _)
    · exact .char _
    · exact .time _ _ (by rintro q ⟨⟩)
  · apply Readable.row _ (by simp)
    intro t ht
    simp only [List.mem_cons, List.not_mem_nil, or_false] at ht
    rcases ht with rfl | rfl | rfl | rfl | rfl | rfl
    · exact .map _ _ (.varchar _ (by rintro q ⟨⟩; omega)) (.decimal _ _ (by omega) (by omega))
    · exact .array _ (.timestamp _ _ (by rintro q ⟨⟩; omega))
    · exact .interval _
    · exact .qdigest _ (.simple _)
    · exact .char _ (by omega)
    · exact .time _ _ (by rintro q ⟨⟩)

/-- **C01.** The condition is exact: reading the text of a valid type gives the type back if and
only if no length or scale in it is negative and no ROW in it is empty. -/
theorem C01_exact (t : Ty) (hv : Valid t) : typeFromSql t.sql = .ok t ↔ Readable t :=
  ⟨fun h => (typeFromSql_readable h).1, fun h => typeFromSql_sql t hv h⟩

/-- **C01.** Whatever type is read from any text at all, its own text is read back as that type. -/
theorem C01_read_print_read (s : Str) (t : Ty) (h : typeFromSql s = .ok t) : typeFromSql t.sql = .ok t :=
  typeFromSql_sql t (typeFromSql_readable h).2 (typeFromSql_readable h).1

example : typeFromSql (c% "row( Decimal ( 5 ), bigint array)") =
    .ok (.row [.decimal 5 0, .array (.simple .bigint)]) := by rfl

/-- **C01.** Hence formatting the text of a type is stable. -/
theorem C01_format_stable (s : Str) (t : Ty) (h : typeFromSql s = .ok t) :
    (typeFromSql t.sql).map Ty.sql = .ok t.sql := by
  rw [C01_read_print_read s t h]; rfl

/-- **C01.** Two types have different texts unless they are equal, also those that cannot be built
or read back. -/
theorem C01_text_determines (t u : Ty) (h : t.sql = u.sql) : t = u := Ty_sql_inj h

example : (Ty.row [.decimal 3 (-1), .varchar none]).sql ≠ (Ty.row [.decimal 3 1, .varchar none]).sql :=
  fun h => by have := C01_text_determines _ _ h; simp at this

/-- **C01.** The type read from a text is valid at every depth. -/
theorem C01_read_valid (s : Str) (t : Ty) (h : typeFromSql s = .ok t) : Valid t :=
  (typeFromSql_readable h).2

/-- **C01 fails** for negative scales, which the library accepts. -/
theorem C01_negative_scale_fails :
    mkType (c% "DECIMAL") [(c% "precision", .int 5), (c% "scale", .int (-2))] = .ok (.decimal 5 (-2)) ∧
      typeFromSql (Ty.sql (.decimal 5 (-2))) = .error .syntax := ⟨by decide, by rfl⟩

/-- **C01 fails** for negative lengths, which the library accepts. -/
theorem C01_negative_length_fails :
    mkType (c% "VARCHAR") [(c% "max_chars", .int (-1))] = .ok (.varchar (some (-1))) ∧
      typeFromSql (Ty.sql (.varchar (some (-1)))) = .error .syntax := ⟨by decide, by rfl⟩

/-- **C01 fails** for the ROW without fields, which the library accepts. -/
theorem C01_empty_row_fails :
    mkType (c% "ROW") [(c% "dtypes", .list [])] = .ok (.row []) ∧
      typeFromSql (Ty.sql (.row [])) = .error .syntax := ⟨by decide, by rfl⟩

/-! ## C53, types -/

/-- **C53 (types).** A tree the type parser returns is a derivation, by the rules of the grammar, of
exactly the tokens it consumed; the tokens it did not consume are left untouched. -/
theorem C53_types_sound (ts rest : List Tok) (c : CTy) (h : pType ts = some (c, rest)) :
    ∃ consumed, GTy c consumed ∧ ts = consumed ++ rest := pType_sound h

/-- **C53 (types).** `type_from_sql` only succeeds on a text whose tokens, all of them, are derived
by rule `type_`. -/
theorem C53_type_text_sound (s : Str) (t : Ty) (h : typeFromSql s = .ok t) :
    ∃ c, GTy c (toks s) ∧ c.conv = .ok t := by
  unfold typeFromSql at h
  split at h
  · next c hp =>
    obtain ⟨pre, hg, e⟩ := pType_sound hp
    exact ⟨c, by simpa [e] using hg, h⟩
  · cases h

/-- **C53 (types).** The whole text is consumed: a type followed by anything else is refused. -/
theorem C53_type_text_complete_consumption (s : Str) (c : CTy) (t : Tok) (ts : List Tok)
    (h : pType (toks s) = some (c, t :: ts)) : typeFromSql s = .error .syntax := by
  unfold typeFromSql
  rw [h]

example : pType (toks (c% "MAP(BIGINT, ROW(DATE)) ARRAY , x")) =
    some (.arrayOf (.generic ⟨.kw, c% "MAP"⟩ [.ty (.generic ⟨.ident, c% "BIGINT"⟩ []),
      .ty (.row [.mk none (.generic ⟨.kw, c% "DATE"⟩ [])])]) none,
      [⟨.sym, c% ","⟩, ⟨.ident, c% "x"⟩]) := by rfl

end Treeno.Props
