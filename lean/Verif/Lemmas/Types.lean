import Verif.Types
import Verif.Spec.TypeSpec
/-!
# Helper lemmas about data type construction
-/
namespace Treeno
open Spec

theorem hasKey_isSome {α} (k : Str) : ∀ d : List (Str × α), hasKey k d = (dget k d).isSome
  | [] => rfl
  | (k', v) :: r => by
    have := hasKey_isSome k r
    simp only [hasKey, List.any_cons, dget] at this ⊢
    cases h : (k' == k) <;> simp [this]

theorem dget_append {α} (k : Str) (d e : List (Str × α)) :
    dget k (d ++ e) = (dget k d).or (dget k e) := by
  induction d with
  | nil => simp [dget]
  | cons p r ih =>
    obtain ⟨k', v⟩ := p
    simp only [List.cons_append, dget]
    cases h : (k' == k) <;> simp [ih]

/-- The loop of `__attrs_post_init__` on lookup functions. -/
def fillG : List TypeParam → (Str → Option PVal) → Except Err (Str → Option PVal)
  | [], g => .ok g
  | f :: fs, g =>
    if !f.required && !(g f.name).isSome then
      match f.default with
      | Option.none => fillG fs g
      | some d =>
        if d.isInstance f.kind then fillG fs (fun k => (g k).or (if f.name == k then some d else none))
        else .error .assertion
    else match g f.name with
      | Option.none => .error .assertion
      | some v => if v.isInstance f.kind then fillG fs g else .error .assertion

theorem fillFields_fillG : ∀ (fs : List TypeParam) (ps : List (Str × PVal)),
    (∃ e, fillFields fs ps = .error e ∧ fillG fs (fun k => dget k ps) = .error e) ∨
    (∃ ps', fillFields fs ps = .ok ps' ∧ fillG fs (fun k => dget k ps) = .ok (fun k => dget k ps'))
  | [], ps => .inr ⟨ps, rfl, rfl⟩
  | f :: fs, ps => by
    have hk : hasKey f.name ps = (dget f.name ps).isSome := hasKey_isSome _ _
    simp only [fillFields, fillG, hk]
    split
    · cases hd : f.default with
      | none => exact fillFields_fillG fs ps
      | some d =>
        dsimp only
        split
        · have := fillFields_fillG fs (ps ++ [(f.name, d)])
          have he : (fun k => dget k (ps ++ [(f.name, d)])) =
              (fun k => (dget k ps).or (if f.name == k then some d else none)) := by
            funext k; rw [dget_append]; simp [dget]
          rwa [he] at this
        · exact .inl ⟨_, rfl, rfl⟩
    · cases hg : dget f.name ps with
      | none => exact .inl ⟨_, rfl, rfl⟩
      | some v =>
        dsimp only
        split
        · exact fillFields_fillG fs ps
        · exact .inl ⟨_, rfl, rfl⟩

theorem all_keys_iff (fs : List TypeParam) (ps : List (Str × PVal)) :
    ps.all (fun p => fs.any (fun f => f.name == p.1)) = true ↔
      ∀ k, (dget k ps).isSome = true → k ∈ fs.map TypeParam.name := by
  constructor
  · intro h k hk
    rw [← hasKey_isSome, hasKey, List.any_eq_true] at hk
    obtain ⟨p, hp, e⟩ := hk
    rw [List.all_eq_true] at h
    have := h p hp
    rw [List.any_eq_true] at this
    obtain ⟨f, hf, e2⟩ := this
    rw [List.mem_map]
    refine ⟨f, hf, ?_⟩
    rw [eq_of_beq e2, eq_of_beq e]
  · intro h
    rw [List.all_eq_true]
    intro p hp
    have : (dget p.1 ps).isSome = true := by
      rw [← hasKey_isSome, hasKey, List.any_eq_true]; exact ⟨p, hp, by simp⟩
    have := h _ this
    rw [List.mem_map] at this
    obtain ⟨f, hf, e⟩ := this
    rw [List.any_eq_true]; exact ⟨f, hf, by simp [e]⟩

open Classical in
/-- `mkType` in terms of the lookup function of its parameter dict. -/
noncomputable def mkTypeG (tn : Str) (g : Str → Option PVal) : Except Err Ty :=
  if tn ∈ allowedTypes then
    match fillG (fieldsOf tn) g with
    | .error e => .error e
    | .ok g' =>
      if ∀ k, (g' k).isSome = true → k ∈ (fieldsOf tn).map TypeParam.name then validateTy tn g'
      else .error .assertion
  else .error .assertion

theorem mkType_eq (n : Str) (ps : List (Str × PVal)) :
    mkType n ps = mkTypeG (upper n) (fun k => dget k ps) := by
  unfold mkType mkTypeG
  dsimp only
  by_cases hal : upper n ∈ allowedTypes
  · rw [if_pos hal, if_pos hal]
    rcases fillFields_fillG (fieldsOf (upper n)) ps with ⟨e, h1, h2⟩ | ⟨ps', h1, h2⟩
    · rw [h1, h2]
    · rw [h1, h2]
      dsimp only
      by_cases hk : ps'.all (fun p => (fieldsOf (upper n)).any (fun f => f.name == p.1)) = true
      · rw [if_pos hk, if_pos ((all_keys_iff _ _).1 hk)]
      · rw [if_neg hk, if_neg (fun h => hk ((all_keys_iff _ _).2 h))]
  · rw [if_neg hal, if_neg hal]

theorem mkType_congr {n m : Str} {ps qs : List (Str × PVal)} (hn : upper n = upper m)
    (h : ∀ k, dget k ps = dget k qs) : mkType n ps = mkType m qs := by
  rw [mkType_eq, mkType_eq, hn]
  congr 1
  funext k; exact h k

theorem dget_perm {ps qs : List (Str × PVal)} (h : ps.Perm qs) (hn : (ps.map Prod.fst).Nodup)
    (k : Str) : dget k ps = dget k qs := by
  induction h with
  | nil => rfl
  | cons x h ih =>
    obtain ⟨k', v⟩ := x
    simp only [dget]
    rw [ih (by simp at hn; simp [hn])]
  | swap x y l =>
    obtain ⟨k1, v1⟩ := x
    obtain ⟨k2, v2⟩ := y
    simp only [List.map_cons, List.nodup_cons, List.mem_cons, not_or] at hn
    simp only [dget]
    by_cases h1 : k1 = k
    · subst h1
      have : ¬ k2 = k1 := hn.1.1
      simp [this]
    · simp [h1]
  | trans h1 h2 ih1 ih2 =>
    rw [ih1 hn, ih2]
    exact (h1.map Prod.fst).nodup_iff.1 hn

/-- The default of a declared field. -/
def fieldDefault : List TypeParam → Str → Option PVal
  | [], _ => none
  | f :: fs, k => if f.name = k then (if f.required then none else f.default) else fieldDefault fs k

/-- A field is acceptable: supplied with the right kind, or absent and not required. -/
def FieldOk (g : Str → Option PVal) (f : TypeParam) : Prop :=
  match g f.name with
  | some v => v.isInstance f.kind = true
  | none => f.required = false ∧ ∀ d, f.default = some d → d.isInstance f.kind = true

theorem fieldDefault_notin : ∀ (fs : List TypeParam) (k : Str), k ∉ fs.map TypeParam.name →
    fieldDefault fs k = none
  | [], _, _ => rfl
  | f :: fs, k, h => by
    simp only [List.map_cons, List.mem_cons, not_or] at h
    rw [fieldDefault, if_neg (fun e => h.1 e.symm), fieldDefault_notin fs k h.2]

theorem fillG_iff : ∀ (fs : List TypeParam) (g g' : Str → Option PVal),
    (fs.map TypeParam.name).Nodup →
    (fillG fs g = .ok g' ↔ (∀ f ∈ fs, FieldOk g f) ∧ g' = fun k => (g k).or (fieldDefault fs k))
  | [], g, g', _ => by
    simp only [fillG, fieldDefault, Except.ok.injEq]
    constructor
    · rintro rfl; exact ⟨by simp, by funext k; simp⟩
    · rintro ⟨_, rfl⟩; funext k; simp
  | f :: fs, g, g', hn => by
    simp only [List.map_cons, List.nodup_cons] at hn
    have hfd := fieldDefault_notin fs f.name hn.1
    simp only [fillG, List.forall_mem_cons]
    cases hg : g f.name with
    | none =>
      cases hr : f.required with
      | true => simp [FieldOk, hg, hr]
      | false =>
        simp only [Bool.not_false, Bool.true_and, Option.isSome_none, if_true]
        cases hd : f.default with
        | none =>
          dsimp only
          rw [fillG_iff fs g g' hn.2]
          have : FieldOk g f := by simp [FieldOk, hg, hr, hd]
          have he : (fun k => (g k).or (fieldDefault (f :: fs) k)) = fun k => (g k).or (fieldDefault fs k) := by
            funext k
            rw [fieldDefault]
            split
            · rename_i e; subst e; rw [hfd, hd]; simp
            · rfl
          rw [he]; simp [this]
        | some d =>
          dsimp only
          by_cases hi : d.isInstance f.kind = true
          · rw [if_pos hi, fillG_iff fs _ g' hn.2]
            have : FieldOk g f := by simp [FieldOk, hg, hr, hd, hi]
            have h1 : ∀ f' ∈ fs, (FieldOk (fun k => (g k).or (if f.name == k then some d else none)) f' ↔
                FieldOk g f') := by
              intro f' hf'
              have hne : ¬ f.name = f'.name := by
                intro e; exact hn.1 (e ▸ List.mem_map_of_mem hf')
              simp [FieldOk, hne]
            have h2 : (fun k => ((g k).or (if f.name == k then some d else none)).or (fieldDefault fs k)) =
                fun k => (g k).or (fieldDefault (f :: fs) k) := by
              funext k
              rw [fieldDefault, hr, hd]
              by_cases e : f.name = k
              · subst e; simp [hfd]
              · simp [e]
            rw [h2]
            constructor
            · rintro ⟨ha, rfl⟩; exact ⟨⟨this, fun f' hf' => (h1 f' hf').1 (ha f' hf')⟩, rfl⟩
            · rintro ⟨⟨_, ha⟩, rfl⟩; exact ⟨fun f' hf' => (h1 f' hf').2 (ha f' hf'), rfl⟩
          · rw [if_neg hi]
            simp [FieldOk, hg, hr, hd, hi]
    | some v =>
      simp only [Option.isSome_some, Bool.not_true, Bool.and_false, Bool.false_eq_true, if_false]
      by_cases hi : v.isInstance f.kind = true
      · rw [if_pos hi, fillG_iff fs g g' hn.2]
        have : FieldOk g f := by simp [FieldOk, hg, hi]
        have he : (fun k => (g k).or (fieldDefault (f :: fs) k)) = fun k => (g k).or (fieldDefault fs k) := by
          funext k
          rw [fieldDefault]
          split
          · rename_i e; subst e; rw [hg]; simp
          · rfl
        rw [he]; simp [this]
      · rw [if_neg hi]
        simp [FieldOk, hg, hi]

/-- Declared parameter names. -/
def paramNames (tn : Str) : List Str := (fieldsOf tn).map TypeParam.name

theorem paramNames_nodup : ∀ tn : Str, (paramNames tn).Nodup := by
  intro tn
  unfold paramNames fieldsOf
  repeat' (split; · simp)
  simp

theorem asDtypes_eq : ∀ (l : List PVal) (ts : List Ty), asDtypes l = some ts → l = ts.map .dtype
  | [], ts, h => by simp [asDtypes] at h; simp [← h]
  | .dtype t :: r, ts, h => by
    simp only [asDtypes, Option.map_eq_some_iff] at h
    obtain ⟨us, hu, rfl⟩ := h
    simp [asDtypes_eq r us hu]
  | .int _ :: _, _, h => by simp [asDtypes] at h
  | .bool _ :: _, _, h => by simp [asDtypes] at h
  | .str _ :: _, _, h => by simp [asDtypes] at h
  | .list _ :: _, _, h => by simp [asDtypes] at h
  | .none :: _, _, h => by simp [asDtypes] at h

theorem asDtypes_map : ∀ ts : List Ty, asDtypes (ts.map .dtype) = some ts
  | [] => rfl
  | t :: r => by simp [asDtypes, asDtypes_map r]

theorem validate_sound {tn : Str} {g : Str → Option PVal} {t : Ty} (h : validateTy tn g = .ok t) :
    t.typeName = tn ∧ InRange t ∧ ∀ k ∈ paramNames tn, dget k t.params = g k := by
  unfold validateTy at h
  by_cases e : tn = c% "DECIMAL"
  · rw [if_pos e] at h; subst e
    split at h <;> try (simp at h; done)
    split at h <;> try (simp at h; done)
    rename_i h1 h2 hr
    cases h
    refine ⟨rfl, hr, ?_⟩
    simp [paramNames, fieldsOf, Ty.params, dget, h1, h2]
  rw [if_neg e] at h
  by_cases e : tn = c% "VARCHAR"
  · rw [if_pos e] at h; subst e
    split at h <;> try (simp at h; done)
    all_goals
      rename_i h1
      cases h
      refine ⟨rfl, trivial, ?_⟩
      simp [paramNames, fieldsOf, Ty.params, dget, h1]
  rw [if_neg e] at h
  by_cases e : tn = c% "CHAR"
  · rw [if_pos e] at h; subst e
    split at h <;> try (simp at h; done)
    rename_i h1
    cases h
    refine ⟨rfl, trivial, ?_⟩
    simp [paramNames, fieldsOf, Ty.params, dget, h1]
  rw [if_neg e] at h
  by_cases e : tn = c% "TIME" ∨ tn = c% "TIMESTAMP"
  · rw [if_pos e] at h
    split at h <;> try (simp at h; done)
    rename_i h1
    dsimp only at h
    split at h
    · rename_i h2
      rcases e with e | e <;> subst e <;> simp at h <;> cases h <;> refine ⟨rfl, trivial, ?_⟩ <;>
        simp [paramNames, fieldsOf, Ty.params, dget, h1, h2]
    · rename_i h2
      split at h <;> try (simp at h; done)
      rename_i hr
      rcases e with e | e <;> subst e <;> simp at h <;> cases h <;> refine ⟨rfl, hr, ?_⟩ <;>
        simp [paramNames, fieldsOf, Ty.params, dget, h1, h2]
    · simp at h
  rw [if_neg e] at h
  by_cases e : tn = c% "ARRAY"
  · rw [if_pos e] at h; subst e
    split at h <;> try (simp at h; done)
    rename_i h1
    cases h
    refine ⟨rfl, trivial, ?_⟩
    simp [paramNames, fieldsOf, Ty.params, dget, h1]
  rw [if_neg e] at h
  by_cases e : tn = c% "QDIGEST"
  · rw [if_pos e] at h; subst e
    split at h <;> try (simp at h; done)
    rename_i h1
    cases h
    refine ⟨rfl, trivial, ?_⟩
    simp [paramNames, fieldsOf, Ty.params, dget, h1]
  rw [if_neg e] at h
  by_cases e : tn = c% "MAP"
  · rw [if_pos e] at h; subst e
    split at h <;> try (simp at h; done)
    rename_i h1 h2
    cases h
    refine ⟨rfl, trivial, ?_⟩
    simp [paramNames, fieldsOf, Ty.params, dget, h1, h2]
  rw [if_neg e] at h
  by_cases e : tn = c% "ROW"
  · rw [if_pos e] at h; subst e
    split at h <;> try (simp at h; done)
    rename_i h1
    split at h <;> try (simp at h; done)
    rename_i h2
    cases h
    refine ⟨rfl, trivial, ?_⟩
    have := asDtypes_eq _ _ h2
    simp [paramNames, fieldsOf, Ty.params, dget, h1, this]
  rw [if_neg e] at h
  by_cases e : tn = c% "INTERVAL"
  · rw [if_pos e] at h; subst e
    split at h <;> try (simp at h; done)
    rename_i a b h1 h2
    split at h
    · rename_i ea; subst ea
      split at h <;> try (simp at h; done)
      rename_i eb; subst eb
      cases h
      refine ⟨rfl, trivial, ?_⟩
      simp [paramNames, fieldsOf, Ty.params, dget, h1, h2, IvKind.fromS, IvKind.toS]
    · split at h <;> try (simp at h; done)
      rename_i ea; subst ea
      split at h <;> try (simp at h; done)
      rename_i eb; subst eb
      cases h
      refine ⟨rfl, trivial, ?_⟩
      simp [paramNames, fieldsOf, Ty.params, dget, h1, h2, IvKind.fromS, IvKind.toS]
  rw [if_neg e] at h
  · clear e
    split at h <;> try (simp at h; done)
    rename_i s hs
    cases h
    have := List.find?_some hs
    have e : s.name = tn := by simpa using this
    refine ⟨e, trivial, ?_⟩
    have : paramNames tn = [] := by subst e; cases s <;> rfl
    simp [this]

theorem validate_complete {tn : Str} {g : Str → Option PVal} {t : Ty} (htn : t.typeName = tn)
    (hr : InRange t) (hk : ∀ k ∈ paramNames tn, dget k t.params = g k) :
    validateTy tn g = .ok t := by
  subst htn
  cases t with
  | simple s => cases s <;> rfl
  | decimal p s =>
    simp only [paramNames, Ty.typeName, fieldsOf, Ty.params, dget] at hk
    simp at hk
    have hr : 0 ≤ p ∧ p ≤ 38 := hr
    simp [validateTy, Ty.typeName, ← hk.1, ← hk.2, hr]
  | varchar n =>
    cases n <;> simp [paramNames, Ty.typeName, fieldsOf, Ty.params, dget] at hk <;>
    simp [validateTy, Ty.typeName, ← hk]
  | char n =>
    simp [paramNames, Ty.typeName, fieldsOf, Ty.params, dget] at hk
    simp [validateTy, Ty.typeName, ← hk]
  | time p z =>
    cases p with
    | none =>
      simp [paramNames, Ty.typeName, fieldsOf, Ty.params, dget] at hk
      simp [validateTy, Ty.typeName, ← hk.1, ← hk.2]
    | some p =>
      have hr : 0 ≤ p ∧ p ≤ 12 := hr
      simp [paramNames, Ty.typeName, fieldsOf, Ty.params, dget] at hk
      simp [validateTy, Ty.typeName, ← hk.1, ← hk.2, hr]
  | timestamp p z =>
    cases p with
    | none =>
      simp [paramNames, Ty.typeName, fieldsOf, Ty.params, dget] at hk
      simp [validateTy, Ty.typeName, ← hk.1, ← hk.2]
    | some p =>
      have hr : 0 ≤ p ∧ p ≤ 12 := hr
      simp [paramNames, Ty.typeName, fieldsOf, Ty.params, dget] at hk
      simp [validateTy, Ty.typeName, ← hk.1, ← hk.2, hr]
  | interval k =>
    cases k <;> simp [paramNames, Ty.typeName, fieldsOf, Ty.params, dget, IvKind.fromS, IvKind.toS] at hk <;>
    simp [validateTy, Ty.typeName, ← hk.1, ← hk.2]
  | array t =>
    simp [paramNames, Ty.typeName, fieldsOf, Ty.params, dget] at hk
    simp [validateTy, Ty.typeName, ← hk]
  | map a b =>
    simp [paramNames, Ty.typeName, fieldsOf, Ty.params, dget] at hk
    simp [validateTy, Ty.typeName, ← hk.1, ← hk.2]
  | row l =>
    simp [paramNames, Ty.typeName, fieldsOf, Ty.params, dget] at hk
    simp [validateTy, Ty.typeName, ← hk, asDtypes_map]
  | qdigest t =>
    simp [paramNames, Ty.typeName, fieldsOf, Ty.params, dget] at hk
    simp [validateTy, Ty.typeName, ← hk]

theorem dget_notin {α} (k : Str) : ∀ d : List (Str × α), k ∉ d.map Prod.fst → dget k d = none
  | [], _ => rfl
  | (k', v) :: r, h => by
    simp only [List.map_cons, List.mem_cons, not_or] at h
    have : (k' == k) = false := by simpa using fun e => h.1 e.symm
    rw [dget, this]; simpa using dget_notin k r h.2

theorem params_keys (t : Ty) (k : Str) (h : k ∈ t.params.map Prod.fst) : k ∈ paramNames t.typeName := by
  cases t with
  | simple s => simp [Ty.params] at h
  | varchar n => cases n with
    | none => simp [Ty.params] at h
    | some n => exact h
  | time p z => cases p with
    | none => 
      have h : k ∈ [c% "timezone"] := h
      show k ∈ [c% "precision", c% "timezone"]
      exact List.mem_cons_of_mem _ h
    | some n => exact h
  | timestamp p z => cases p with
    | none => 
      have h : k ∈ [c% "timezone"] := h
      show k ∈ [c% "precision", c% "timezone"]
      exact List.mem_cons_of_mem _ h
    | some n => exact h
  | _ => exact h

/-- A type has only declared parameters. -/
theorem params_only (t : Ty) (k : Str) (h : k ∉ paramNames t.typeName) : dget k t.params = none :=
  dget_notin k _ (fun hk => h (params_keys t k hk))

/-- The parameters of a type have the declared kinds, required ones are present, and absent ones
have no default. -/
theorem params_ok (t : Ty) : ∀ f ∈ fieldsOf t.typeName,
    (match dget f.name t.params with
      | some v => v.isInstance f.kind = true
      | none => f.required = false ∧ f.default = none) := by
  cases t with
  | simple s => cases s <;> simp [Ty.typeName, Simple.name, fieldsOf]
  | varchar n => cases n <;> simp [Ty.typeName, fieldsOf, Ty.params, dget, PVal.isInstance]
  | time p z => cases p <;> simp [Ty.typeName, fieldsOf, Ty.params, dget, PVal.isInstance]
  | timestamp p z => cases p <;> simp [Ty.typeName, fieldsOf, Ty.params, dget, PVal.isInstance]
  | _ => simp [Ty.typeName, fieldsOf, Ty.params, dget, PVal.isInstance]

theorem typeName_allowed (t : Ty) : t.typeName ∈ allowedTypes := by
  cases t with
  | simple s => cases s <;> decide
  | _ => simp [Ty.typeName, allowedTypes]

/-- The declared defaults are those of the specification, and have the declared kind. -/
theorem fieldDefault_spec (tn k : Str) : fieldDefault (fieldsOf tn) k = defaultParam tn k := by
  by_cases hD : tn = c% "DECIMAL"
  · subst hD
    show fieldDefault [⟨c% "precision", false, .int, some (.int 38)⟩, ⟨c% "scale", false, .int, some (.int 0)⟩] k = _
    by_cases h1 : c% "precision" = k
    · subst h1; rfl
    by_cases h2 : c% "scale" = k
    · subst h2; rfl
    rw [fieldDefault, fieldDefault, if_neg h1, if_neg h2, defaultParam, if_neg (fun e => h1 e.2.symm),
      if_neg (fun e => h2 e.2.symm), if_neg (by simp), if_neg (by simp), fieldDefault]
  have hd1 : ¬ (tn = c% "DECIMAL" ∧ k = c% "precision") := fun e => hD e.1
  have hd2 : ¬ (tn = c% "DECIMAL" ∧ k = c% "scale") := fun e => hD e.1
  unfold fieldsOf defaultParam
  rw [if_neg hD, if_neg hd1, if_neg hd2]
  by_cases hV : tn = c% "VARCHAR"
  · subst hV; simp [fieldDefault]
  rw [if_neg hV]
  by_cases hC : tn = c% "CHAR"
  · subst hC
    rw [if_pos rfl]
    by_cases h1 : c% "max_chars" = k
    · subst h1; rfl
    · have h2 : ¬ (c% "CHAR" = c% "CHAR" ∧ k = c% "max_chars") := fun e => h1 e.2.symm
      rw [if_neg h2, if_neg (by simp), fieldDefault, if_neg h1, fieldDefault]
  have hc1 : ¬ (tn = c% "CHAR" ∧ k = c% "max_chars") := fun e => hC e.1
  rw [if_neg hC, if_neg hc1]
  have tl : fieldDefault [⟨c% "precision", false, .int, Option.none⟩, ⟨c% "timezone", false, .bool, some (.bool false)⟩] k
      = if k = c% "timezone" then some (PVal.bool false) else none := by
    simp only [fieldDefault]
    by_cases h1 : c% "precision" = k
    · subst h1; rfl
    · rw [if_neg h1]
      by_cases h2 : c% "timezone" = k
      · subst h2; rfl
      · rw [if_neg h2, if_neg (fun e => h2 e.symm)]
  by_cases hT : tn = c% "TIME"
  · subst hT; rw [if_pos rfl, tl]; simp
  rw [if_neg hT]
  by_cases hTS : tn = c% "TIMESTAMP"
  · subst hTS; rw [if_pos rfl, tl]; simp
  have hts : ¬ ((tn = c% "TIME" ∨ tn = c% "TIMESTAMP") ∧ k = c% "timezone") := fun e => e.1.elim hT hTS
  rw [if_neg hTS, if_neg hts]
  repeat' (split; · simp [fieldDefault])
  rfl

theorem defaultParam_kind (tn : Str) : ∀ f ∈ fieldsOf tn, ∀ d, f.default = some d →
    d.isInstance f.kind = true := by
  intro f hf d hd
  unfold fieldsOf at hf
  repeat' (split at hf; · simp at hf; (try rcases hf with rfl | rfl) <;> (try subst hf) <;> simp at hd <;> subst hd <;> rfl)
  simp at hf

theorem fieldDefault_mem : ∀ (fs : List TypeParam), (fs.map TypeParam.name).Nodup → ∀ f ∈ fs,
    f.required = false → fieldDefault fs f.name = f.default
  | [], _, f, h, _ => by simp at h
  | g :: fs, hn, f, h, hr => by
    simp only [List.map_cons, List.nodup_cons] at hn
    rcases List.mem_cons.1 h with rfl | h
    · simp [fieldDefault, hr]
    · have : ¬ g.name = f.name := fun e => hn.1 (e ▸ List.mem_map_of_mem h)
      rw [fieldDefault, if_neg this, fieldDefault_mem fs hn.2 f h hr]

theorem fieldDefault_required : ∀ (fs : List TypeParam), (fs.map TypeParam.name).Nodup → ∀ f ∈ fs,
    f.required = true → fieldDefault fs f.name = none
  | [], _, f, h, _ => by simp at h
  | g :: fs, hn, f, h, hr => by
    simp only [List.map_cons, List.nodup_cons] at hn
    rcases List.mem_cons.1 h with rfl | h
    · simp [fieldDefault, hr]
    · have : ¬ g.name = f.name := fun e => hn.1 (e ▸ List.mem_map_of_mem h)
      rw [fieldDefault, if_neg this, fieldDefault_required fs hn.2 f h hr]

/-- Exact characterisation of successful construction. -/
theorem mkType_ok_iff (n : Str) (ps : List (Str × PVal)) (t : Ty) :
    mkType n ps = .ok t ↔ t.typeName = upper n ∧ InRange t ∧ Describes ps t := by
  rw [mkType_eq]
  unfold mkTypeG
  constructor
  · intro h
    split at h
    · rename_i ha
      split at h
      · simp at h
      · rename_i g' hg
        rw [fillG_iff _ _ _ (paramNames_nodup _)] at hg
        obtain ⟨hok, rfl⟩ := hg
        split at h
        · rename_i hkeys
          obtain ⟨h1, h2, h3⟩ := validate_sound h
          refine ⟨h1, h2, ?_⟩
          intro k
          by_cases hk : k ∈ paramNames (upper n)
          · have := h3 k hk
            cases hd : dget k ps with
            | some v => rw [hd] at this; simpa using this
            | none => rw [hd, fieldDefault_spec] at this; simpa [h1] using this
          · have hnone : (dget k ps).or (fieldDefault (fieldsOf (upper n)) k) = none := by
              cases he : (dget k ps).or (fieldDefault (fieldsOf (upper n)) k) with
              | none => rfl
              | some v => exact absurd (hkeys k (by simp [he])) hk
            rw [Option.or_eq_none_iff] at hnone
            rw [hnone.1]
            dsimp only
            rw [params_only t k (by rw [h1]; exact hk), h1, ← fieldDefault_spec, hnone.2]
        · simp at h
    · simp at h
  · rintro ⟨h1, h2, h3⟩
    rw [if_pos (h1 ▸ typeName_allowed t)]
    have hg : fillG (fieldsOf (upper n)) (fun k => dget k ps) =
        .ok (fun k => (dget k ps).or (fieldDefault (fieldsOf (upper n)) k)) := by
      rw [fillG_iff _ _ _ (paramNames_nodup _)]
      refine ⟨?_, rfl⟩
      intro f hf
      have hp := params_ok t f (by rw [h1]; exact hf)
      have hd := h3 f.name
      unfold FieldOk
      dsimp only
      cases hdk : dget f.name ps with
      | some v =>
        rw [hdk] at hd
        dsimp only at hd ⊢
        rw [hd] at hp
        exact hp
      | none =>
        rw [hdk] at hd
        dsimp only at hd ⊢
        rw [h1, ← fieldDefault_spec] at hd
        refine ⟨?_, fun d hd' => defaultParam_kind (upper n) f hf d hd'⟩
        cases hr : f.required with
        | false => rfl
        | true =>
          rw [fieldDefault_required _ (paramNames_nodup _) f hf hr] at hd
          rw [hd] at hp
          simp [hr] at hp
    rw [hg]
    dsimp only
    have hall : ∀ k, dget k t.params = (dget k ps).or (fieldDefault (fieldsOf (upper n)) k) := by
      intro k
      have hd := h3 k
      cases hdk : dget k ps with
      | some v => rw [hdk] at hd; simpa using hd
      | none => rw [hdk] at hd; rw [h1, ← fieldDefault_spec] at hd; simpa using hd
    rw [if_pos]
    · exact validate_complete h1 h2 (fun k _ => hall k)
    · intro k hk
      rw [← hall k] at hk
      by_cases hm : k ∈ paramNames (upper n)
      · exact hm
      · rw [params_only t k (by rw [h1]; exact hm)] at hk
        simp at hk

theorem upper_typeName (t : Ty) : upper t.typeName = t.typeName := by
  cases t with
  | simple s => cases s <;> rfl
  | _ => rfl

theorem describes_self (t : Ty) : Describes t.params t := by
  intro k
  cases h : dget k t.params with
  | some v => rfl
  | none =>
    show none = _
    by_cases hk : k ∈ paramNames t.typeName
    · obtain ⟨f, hf, rfl⟩ := List.mem_map.1 hk
      have := params_ok t f hf
      rw [h] at this
      rw [← fieldDefault_spec, fieldDefault_mem _ (paramNames_nodup _) f hf this.1, this.2]
    · rw [← fieldDefault_spec, fieldDefault_notin _ _ hk]

/-- A type in range is rebuilt from its own name and parameters. -/
theorem mkType_self (t : Ty) (h : InRange t) : mkType t.typeName t.params = .ok t := by
  rw [mkType_ok_iff]
  exact ⟨(upper_typeName t).symm, h, describes_self t⟩

/-- If the component types supplied are valid at every depth, so is the constructed type. -/
theorem mkType_valid {name : Str} {supplied : List (Str × PVal)} {t : Ty}
    (h : mkType name supplied = .ok t) (hs : ∀ k v, dget k supplied = some v → PValOk v) :
    Valid t := by
  obtain ⟨_, h2, h3⟩ := (mkType_ok_iff name supplied t).1 h
  have look : ∀ k v, dget k t.params = some v → defaultParam t.typeName k = none → PValOk v := by
    intro k v hv hd
    have := h3 k
    cases hk : dget k supplied with
    | some w =>
      rw [hk] at this
      have e : some v = some w := hv.symm.trans this
      cases e
      exact hs k _ hk
    | none =>
      rw [hk] at this
      have e : some v = none := hv.symm.trans (this.trans hd)
      simp at e
  cases t with
  | simple s => exact .simple s
  | decimal p s => exact .decimal p s h2.1 h2.2
  | varchar n => exact .varchar n
  | char n => exact .char n
  | time p z =>
    refine .time p z ?_
    rintro q rfl
    exact h2
  | timestamp p z =>
    refine .timestamp p z ?_
    rintro q rfl
    exact h2
  | interval k => exact .interval k
  | array a => exact .array a (look (c% "dtype") (.dtype a) rfl rfl)
  | qdigest a => exact .qdigest a (look (c% "dtype") (.dtype a) rfl rfl)
  | map a b =>
    exact .map a b (look (c% "from_dtype") (.dtype a) rfl rfl) (look (c% "to_dtype") (.dtype b) rfl rfl)
  | row l =>
    have hl : PValOk (.list (l.map .dtype)) := look (c% "dtypes") (.list (l.map .dtype)) rfl rfl
    exact .row l (fun t ht => hl t (List.mem_map_of_mem ht))

end Treeno
