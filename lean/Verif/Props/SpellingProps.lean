import Verif.Lemmas.TypeSpelling
import Verif.Lemmas.Krfl
/-!
# C69: the ways of writing a data type
-/
set_option autoImplicit false
namespace Treeno.Props
open Treeno Spec

/-- **C69.** `type_from_sql` returns the type `t` for a text exactly when the tokens of the text are
one of the ways of writing `t` that `Spells` lists, at any depth.  Missing from the full claim: the
ways of writing a type of `C69_named_field_fails`, `C69_alias_fails` and
`C69_lower_case_interval_fails`; and parameters that a type does not have are ignored
(`C69_extra_parameter`). -/
theorem C69_exact_partial (s : Str) (t : Ty) : typeFromSql s = .ok t ↔ Spells (toks s) t := by
  constructor
  · intro h
    unfold typeFromSql at h
    split at h
    · next c hp =>
      obtain ⟨pre, hg, e⟩ := pType_sound hp
      rw [List.append_nil] at e
      exact e ▸ spells_of c pre t hg h
    · cases h
  · intro h
    obtain ⟨c, hp, hc⟩ := pType_spells h
    unfold typeFromSql
    rw [hp]
    exact hc

-- a type of depth three, in mixed spellings
example : Spells (toks (c% "row(double precision, timestamp (3) WITHOUT TIME ZONE array array, map(\"bigint\", DECIMAL(5)))"))
    (.row [.simple .double, .array (.array (.timestamp (some 3) false)), .map (.simple .bigint) (.decimal 5 0)]) :=
  (C69_exact_partial _ _).1 (by krfl)

/-- **C69.** A text names at most one type. -/
theorem C69_unique (ts : List Tok) (t u : Ty) (h : Spells ts t) (h' : Spells ts u) : t = u := by
  obtain ⟨c, hp, hc⟩ := pType_spells h
  obtain ⟨c', hp', hc'⟩ := pType_spells h'
  have e : some (c, ([] : List Tok)) = some (c', []) := hp.symm.trans hp'
  cases e
  have e : (Except.ok t : Except Err Ty) = .ok u := hc.symm.trans hc'
  cases e
  rfl

/-- **C69.** Inside a larger text too: a type followed by a comma or a closing parenthesis (CAST,
TRY_CAST, components of types) is read as that type, and reading stops right after it. -/
theorem C69_in_context (ts rest : List Tok) (t : Ty) (h : Spells ts t)
    (hr : rest.head? = some ⟨.sym, c% ","⟩ ∨ rest.head? = some ⟨.sym, c% ")"⟩) :
    ∃ c, pType (ts ++ rest) = some (c, rest) ∧ c.conv = .ok t := by
  obtain ⟨c, hc, hp⟩ := (readAs_of h).read
  refine ⟨c, hp rest ?_ _ ?_, hc⟩
  · cases rest with
    | nil => rfl
    | cons a r =>
      simp only [List.head?_cons, Option.some.injEq] at hr
      rcases hr with rfl | rfl <;> rfl
  · simp only [List.length_append]
    omega

example : ∃ c, pType (toks (c% "TIME WITHOUT TIME ZONE) + 1")) = some (c, toks (c% ") + 1")) ∧ c.conv = .ok (.time none false) :=
  C69_in_context (toks (c% "TIME WITHOUT TIME ZONE")) (toks (c% ") + 1")) _ ((C69_exact_partial _ _).1 rfl) (.inr rfl)

/-- **C69.** WITHOUT TIME ZONE may be written or left out; WITH TIME ZONE gives another type. -/
theorem C69_time_zone (p : Option Nat) (a b c d : Tok) (ps : List Tok) (hp : Precision p ps)
    (ha : K (c% "TIMESTAMP") a ∨ K (c% "TIME") a) (hc : K (c% "TIME") c) (hd : K (c% "ZONE") d) :
    ∃ x y : CTy, pType (a :: ps) = some (x, []) ∧
      (K (c% "WITHOUT") b → ∃ w, pType (a :: (ps ++ [b, c, d])) = some (w, []) ∧ w.conv = x.conv) ∧
      (K (c% "WITH") b → pType (a :: (ps ++ [b, c, d])) = some (y, []) ∧ y.conv ≠ x.conv) ∧
      ∃ t, x.conv = .ok t := by
  have key : ∀ t u : Ty, t ≠ u → Spells (a :: ps) t → (K (c% "WITHOUT") b → Spells (a :: (ps ++ [b, c, d])) t) →
      (K (c% "WITH") b → Spells (a :: (ps ++ [b, c, d])) u) →
      ∃ x y : CTy, pType (a :: ps) = some (x, []) ∧
        (K (c% "WITHOUT") b → ∃ w, pType (a :: (ps ++ [b, c, d])) = some (w, []) ∧ w.conv = x.conv) ∧
        (K (c% "WITH") b → pType (a :: (ps ++ [b, c, d])) = some (y, []) ∧ y.conv ≠ x.conv) ∧
        ∃ t, x.conv = .ok t := by
    intro t u hne h1 h2 h3
    obtain ⟨x, hx, hxc⟩ := pType_spells h1
    by_cases hb : K (c% "WITH") b
    · obtain ⟨y, hy, hyc⟩ := pType_spells (h3 hb)
      refine ⟨x, y, hx, fun hb' => ?_, fun _ => ⟨hy, ?_⟩, t, hxc⟩
      · obtain ⟨w, hw, hwc⟩ := pType_spells (h2 hb')
        exact ⟨w, hw, hwc.trans hxc.symm⟩
      · rw [hxc, hyc]
        intro e
        cases e
        exact hne rfl
    · refine ⟨x, x, hx, fun hb' => ?_, fun h => absurd h hb, t, hxc⟩
      obtain ⟨w, hw, hwc⟩ := pType_spells (h2 hb')
      exact ⟨w, hw, hwc.trans hxc.symm⟩
  rcases ha with ha | ha
  · refine key (.timestamp (p.map Int.ofNat) false) (.timestamp (p.map Int.ofNat) true) (by simp) ?_
      (fun hb => .timestamp ha hp (.without hb hc hd)) (fun hb => .timestamp ha hp (.with_ hb hc hd))
    simpa using Spells.timestamp ha hp .none
  · refine key (.time (p.map Int.ofNat) false) (.time (p.map Int.ofNat) true) (by simp) ?_
      (fun hb => .time ha hp (.without hb hc hd)) (fun hb => .time ha hp (.with_ hb hc hd))
    simpa using Spells.time ha hp .none

example : Precision (some 6) (toks (c% "(6)")) ∧ K (c% "TIME") ⟨.kw, c% "time"⟩ :=
  ⟨Precision.some (l := ⟨.sym, c% "("⟩) (n := ⟨.int, c% "6"⟩) (r := ⟨.sym, c% ")"⟩) rfl rfl (by decide) rfl, rfl, rfl⟩

/-- **C69.** ARRAY(t) and t ARRAY are the same type. -/
theorem C69_array_of (ts : List Tok) (t : Ty) (h : Spells ts t) (a : Tok) (ha : K (c% "ARRAY") a) :
    Spells (ts ++ [a]) (.array t) ∧ Spells (a :: ⟨.sym, c% "("⟩ :: (ts ++ [⟨.sym, c% ")"⟩])) (.array t) := by
  refine ⟨.arrayOf h ha, .params (n := c% "ARRAY") ?_ rfl (.one (.ty h)) rfl (.array t [])⟩
  have := TypeName.keyword a ha.1 (by rw [ha.2]; decide)
  rwa [ha.2] at this

/-- **C69.** A precision beyond the limit is refused, whatever else is written. -/
theorem C69_precision_limit (s : Str) (p : Int) (z : Bool) :
    (typeFromSql s = .ok (.time (some p) z) → 0 ≤ p ∧ p ≤ 12) ∧
      (typeFromSql s = .ok (.timestamp (some p) z) → 0 ≤ p ∧ p ≤ 12) ∧
      (∀ q, typeFromSql s = .ok (.decimal p q) → 0 ≤ p ∧ p ≤ 38) := by
  refine ⟨fun h => ?_, fun h => ?_, fun q h => ?_⟩
  · cases (typeFromSql_readable h).2 with | time _ _ h => exact h p rfl
  · cases (typeFromSql_readable h).2 with | timestamp _ _ h => exact h p rfl
  · cases (typeFromSql_readable h).2 with | decimal _ _ h h' => exact ⟨h, h'⟩

/-- **C69.** Where the code falls short: fields of a row cannot be named. -/
theorem C69_named_field_fails : typeFromSql (c% "ROW(x BIGINT)") = .error .assertion := by krfl

/-- So do fields whose name is a word that can start a type. -/
theorem C69_named_field_word_fails : typeFromSql (c% "ROW(interval BIGINT)") = .error .assertion ∧
    typeFromSql (c% "ROW(double BIGINT)") = .error .assertion ∧ typeFromSql (c% "ROW(time BIGINT)") = .error .assertion ∧
    typeFromSql (c% "ROW(timestamp BIGINT)") = .error .assertion ∧ typeFromSql (c% "ROW(x ARRAY(BIGINT))") = .error .assertion :=
  ⟨by krfl, by krfl, by krfl, by krfl, by krfl⟩

/-- **C69.** Where the code falls short: INT and DEC are documented names of INTEGER and DECIMAL. -/
theorem C69_alias_fails : typeFromSql (c% "INT") = .error .assertion ∧ typeFromSql (c% "DEC(3)") = .error .assertion :=
  ⟨by krfl, by krfl⟩

/-- **C69.** Where the code falls short: the fields of an interval must be in capitals. -/
theorem C69_lower_case_interval_fails : typeFromSql (c% "interval year to month") = .error .assertion := by krfl

/-- **C69.** Where the code falls short: parameters that the type does not have are ignored instead of
refused. -/
theorem C69_extra_parameter : typeFromSql (c% "BIGINT(3)") = .ok (.simple .bigint) ∧
    typeFromSql (c% "DECIMAL(10, 2, 7)") = .ok (.decimal 10 2) := ⟨by krfl, by krfl⟩

end Treeno.Props
