import Verif.Lemmas.RespellTok
/-!
# Reading types does not depend on the case of keywords
-/
namespace Treeno

variable {σ : Tok → Tok}

/-- The parsers of types commute with `σ`. -/
structure TNat (σ : Tok → Tok) (r : TRec) : Prop where
  ty : ∀ ts, r .ty (ts.map σ) = (r .ty ts).map (out σ (CTy.respell σ))
  arrays : ∀ c ts, r (.arrays (c.respell σ)) (ts.map σ) = (r (.arrays c) ts).map (out σ (CTy.respell σ))
  fields : ∀ ts, r .fields (ts.map σ) = (r .fields ts).map (out σ (List.map (CField.respell σ)))
  params : ∀ ts, r .params (ts.map σ) = (r .params ts).map (out σ (List.map (CTParam.respell σ)))

section
variable (h : Keeps σ) {r : TRec} (hr : TNat σ r)
include h

theorem pIvTo_map (ts : List Tok) : pIvTo (ts.map σ) = (pIvTo ts).map (out σ (Option.map σ)) := by
  simp only [pIvTo, kw_map h]
  cases kw (c% "TO") ts with
  | none => rfl
  | some ts =>
    simp only [Option.map_some, pIvField_map h]
    cases pIvField ts <;> rfl

theorem pZone_map (ts : List Tok) : pZone (ts.map σ) = (pZone ts).map (out σ id) := by
  simp only [pZone, kw_map h]
  cases kw (c% "WITH") ts with
  | some ts =>
    simp only [Option.map_some, kw_map h]
    cases kw (c% "TIME") ts with
    | none => rfl
    | some ts =>
      simp only [Option.map_some, bind, Option.bind_some, kw_map h]
      cases kw (c% "ZONE") ts <;> rfl
  | none =>
    simp only [Option.map_none]
    cases kw (c% "WITHOUT") ts with
    | none => rfl
    | some ts =>
      simp only [Option.map_some, kw_map h]
      cases kw (c% "TIME") ts with
      | none => rfl
      | some ts =>
        simp only [Option.map_some, bind, Option.bind_some, kw_map h]
        cases kw (c% "ZONE") ts <;> rfl

include hr

theorem pTypeParam_map (ts : List Tok) : pTypeParam r (ts.map σ) = (pTypeParam r ts).map (out σ (CTParam.respell σ)) := by
  simp only [pTypeParam, pKind_map h]
  cases pKind .int ts with
  | some p => rfl
  | none =>
    simp only [Option.map_none, hr.ty]
    cases r .ty ts <;> rfl

theorem pPrecision_map (ts : List Tok) :
    pPrecision r (ts.map σ) = (pPrecision r ts).map (out σ (Option.map (CTParam.respell σ))) := by
  simp only [pPrecision, sym_map h]
  cases sym (c% "(") ts with
  | none => rfl
  | some ts =>
    simp only [Option.map_some, pTypeParam_map h hr]
    cases pTypeParam r ts with
    | none => rfl
    | some p =>
      simp only [Option.map_some, bind, Option.bind_some, out, sym_map h]
      cases sym (c% ")") p.2 <;> rfl

theorem pArrays_map (c : CTy) (ts : List Tok) :
    pArrays r (c.respell σ) (ts.map σ) = (pArrays r c ts).map (out σ (CTy.respell σ)) := by
  simp only [pArrays, kw_map h]
  cases kw (c% "ARRAY") ts with
  | none => rfl
  | some ts =>
    simp only [Option.map_some, sym_map h]
    cases sym (c% "[") ts with
    | none => exact hr.arrays (.arrayOf c none) ts
    | some ts =>
      simp only [Option.map_some, pKind_map h]
      cases pKind .int ts with
      | none => rfl
      | some p =>
        simp only [Option.map_some, bind, Option.bind_some, out, sym_map h]
        cases sym (c% "]") p.2 with
        | none => rfl
        | some ts => exact hr.arrays (.arrayOf c (some p.1)) ts

theorem pField_map (ts : List Tok) : pField r (ts.map σ) = (pField r ts).map (out σ (CField.respell σ)) := by
  simp only [pField, namedField_map h]
  split
  · simp only [pIdent_map h]
    cases pIdent ts with
    | none => rfl
    | some p =>
      simp only [Option.map_some, bind, Option.bind_some, out, hr.ty]
      cases r .ty p.2 <;> rfl
  · simp only [hr.ty]
    cases r .ty ts <;> rfl

theorem pTypeBase_map (ts : List Tok) : pTypeBase r (ts.map σ) = (pTypeBase r ts).map (out σ (CTy.respell σ)) := by
  cases ts with
  | nil => rfl
  | cons t ts =>
    simp only [List.map_cons, pTypeBase, h.isKw, h.isIdent, nextSym_map h, nextKw_map h, secondInt_map h,
      nextIvField_map h]
    split
    · simp only [← List.map_drop, hr.fields]
      cases r .fields (ts.drop 1) with
      | none => rfl
      | some p =>
        simp only [Option.map_some, bind, Option.bind_some, out, CTy_respell_row]
    split
    · simp only [pIvField_map h]
      cases pIvField ts with
      | none => rfl
      | some p =>
        simp only [Option.map_some, bind, Option.bind_some, out, pIvTo_map h]
        cases pIvTo p.2 <;> rfl
    split
    · simp only [pPrecision_map h hr]
      cases pPrecision r ts with
      | none => rfl
      | some p =>
        simp only [Option.map_some, bind, Option.bind_some, out, pZone_map h]
        cases pZone p.2 with
        | none => rfl
        | some q => simp only [Option.map_some, Option.bind_some, out, CTy_respell_datetime, id]
    split
    · simp only [← List.map_drop]
      rfl
    split
    · simp only [← List.map_drop, hr.ty]
      cases r .ty (ts.drop 1) with
      | none => rfl
      | some p =>
        simp only [Option.map_some, bind, Option.bind_some, out, sym_map h]
        cases sym (c% ">") p.2 <;> rfl
    split
    · simp only [← List.map_drop, hr.ty]
      cases r .ty (ts.drop 1) with
      | none => rfl
      | some p =>
        simp only [Option.map_some, bind, Option.bind_some, out, sym_map h]
        cases sym (c% ",") p.2 with
        | none => rfl
        | some ts =>
          simp only [Option.map_some, Option.bind_some, hr.ty]
          cases r .ty ts with
          | none => rfl
          | some q =>
            simp only [Option.map_some, Option.bind_some, out, sym_map h]
            cases sym (c% ">") q.2 <;> rfl
    split
    · simp only [sym_map h]
      cases sym (c% "(") ts with
      | none => rfl
      | some ts =>
        simp only [Option.map_some, hr.params]
        cases r .params ts with
        | none => rfl
        | some p => simp only [Option.map_some, bind, Option.bind_some, out, CTy_respell_generic]
    rfl

theorem tStep_nat : TNat σ (tStep r) where
  ty ts := by
    simp only [tStep, pTypeBase_map h hr]
    cases pTypeBase r ts with
    | none => rfl
    | some p => exact hr.arrays p.1 p.2
  arrays c ts := pArrays_map h hr c ts
  fields ts := by
    simp only [tStep, pField_map h hr]
    cases pField r ts with
    | none => rfl
    | some p =>
      simp only [Option.map_some, bind, Option.bind_some, out, sym_map h]
      cases sym (c% ",") p.2 with
      | some ts =>
        simp only [Option.map_some, hr.fields]
        cases r .fields ts <;> rfl
      | none =>
        simp only [Option.map_none]
        cases sym (c% ")") p.2 <;> rfl
  params ts := by
    simp only [tStep, pTypeParam_map h hr]
    cases pTypeParam r ts with
    | none => rfl
    | some p =>
      simp only [Option.map_some, bind, Option.bind_some, out, sym_map h]
      cases sym (c% ",") p.2 with
      | some ts =>
        simp only [Option.map_some, hr.params]
        cases r .params ts <;> rfl
      | none =>
        simp only [Option.map_none]
        cases sym (c% ")") p.2 <;> rfl

end

theorem tParser_nat (h : Keeps σ) : ∀ n, TNat σ (tParser n)
  | 0 => ⟨fun _ => rfl, fun _ _ => rfl, fun _ => rfl, fun _ => rfl⟩
  | n + 1 => tStep_nat h (tParser_nat h n)

theorem pType_map (h : Keeps σ) (ts : List Tok) : pType (ts.map σ) = (pType ts).map (out σ (CTy.respell σ)) := by
  unfold pType
  rw [List.length_map]
  exact (tParser_nat h _).ty ts

end Treeno
