import Verif.Spec.TypeObjects
import Verif.Lemmas.Types
/-!
# Helper lemmas about data type objects
-/
set_option autoImplicit false
namespace Treeno
open Spec

/-- The dict after the loop, and whether the loop raised, agree with the loop on values. -/
theorem fillDict_eq : ∀ (fs : List TypeParam) (d : Dict), fillFields fs d =
    match fillDict fs d with
    | (none, d') => .ok d'
    | (some e, _) => .error e
  | [], d => rfl
  | f :: fs, d => by
    simp only [fillFields, fillDict]
    split
    · cases hd : f.default with
      | none => exact fillDict_eq fs d
      | some v =>
        dsimp only
        split
        · exact fillDict_eq fs _
        · rfl
    · cases hg : dget f.name d with
      | none => rfl
      | some v =>
        dsimp only
        split
        · exact fillDict_eq fs d
        · rfl

/-- Nothing is taken out of the dict, whether or not the loop raises; what is added are defaults. -/
theorem fillDict_keeps : ∀ (fs : List TypeParam) (d : Dict), ∃ a, (fillDict fs d).2 = d ++ a ∧
    ∀ p ∈ a, ∃ f ∈ fs, f.required = false ∧ f.default = some p.2 ∧ f.name = p.1 ∧ hasKey p.1 d = false
  | [], d => ⟨[], by simp [fillDict], by simp⟩
  | f :: fs, d => by
    simp only [fillDict]
    split
    · rename_i hc
      simp only [Bool.and_eq_true, Bool.not_eq_true'] at hc
      cases hd : f.default with
      | none =>
        obtain ⟨a, h1, h2⟩ := fillDict_keeps fs d
        exact ⟨a, h1, fun p hp => let ⟨g, hg, r⟩ := h2 p hp; ⟨g, List.mem_cons_of_mem _ hg, r⟩⟩
      | some v =>
        dsimp only
        split
        · obtain ⟨a, h1, h2⟩ := fillDict_keeps fs (d ++ [(f.name, v)])
          refine ⟨(f.name, v) :: a, by rw [h1]; simp, ?_⟩
          intro p hp
          rcases List.mem_cons.1 hp with rfl | hp
          · exact ⟨f, List.mem_cons_self, hc.1, hd, rfl, hc.2⟩
          · obtain ⟨g, hg, r1, r2, r3, r4⟩ := h2 p hp
            refine ⟨g, List.mem_cons_of_mem _ hg, r1, r2, r3, ?_⟩
            simp only [hasKey, List.any_append, Bool.or_eq_false_iff] at r4 ⊢
            exact r4.1
        · exact ⟨[(f.name, v)], rfl, by
            intro p hp
            obtain rfl := List.mem_singleton.1 hp
            exact ⟨f, List.mem_cons_self, hc.1, hd, rfl, hc.2⟩⟩
    · cases hg : dget f.name d with
      | none => exact ⟨[], by simp, by simp⟩
      | some v =>
        dsimp only
        split
        · obtain ⟨a, h1, h2⟩ := fillDict_keeps fs d
          exact ⟨a, h1, fun p hp => let ⟨g, hg, r⟩ := h2 p hp; ⟨g, List.mem_cons_of_mem _ hg, r⟩⟩
        · exact ⟨[], by simp, by simp⟩

theorem fillDict_get : ∀ (fs : List TypeParam) (d d' : Dict), (fs.map TypeParam.name).Nodup → fillDict fs d = (none, d') →
    ∀ k, dget k d' = (dget k d).or (fieldDefault fs k)
  | [], d, d', _, h, k => by
    simp only [fillDict, Prod.mk.injEq, true_and] at h
    simp [fieldDefault, h]
  | f :: fs, d, d', hn, h, k => by
    simp only [List.map_cons, List.nodup_cons] at hn
    simp only [fillDict] at h
    split at h
    · rename_i hc
      simp only [Bool.and_eq_true, Bool.not_eq_true', hasKey_isSome, Option.isSome_eq_false_iff, Option.isNone_iff_eq_none] at hc
      simp only [fieldDefault, hc.1]
      cases hd : f.default with
      | none =>
        rw [hd] at h
        have ih := fillDict_get fs d d' hn.2 h k
        rw [ih]
        by_cases hk : f.name = k
        · subst hk
          rw [fieldDefault_notin _ _ hn.1]
          simp
        · rw [if_neg hk]
      | some v =>
        rw [hd] at h
        dsimp only at h
        split at h
        · have ih := fillDict_get fs _ d' hn.2 h k
          rw [ih, dget_append]
          simp only [dget]
          by_cases hk : f.name = k
          · subst hk
            simp [hc.2]
          · rw [if_neg (by simpa using hk), if_neg hk]
            simp
        · cases h
    · rename_i hc
      cases hg : dget f.name d with
      | none => rw [hg] at h; cases h
      | some v =>
        rw [hg] at h
        dsimp only at h
        split at h
        · have ih := fillDict_get fs d d' hn.2 h k
          rw [ih]
          simp only [fieldDefault]
          by_cases hk : f.name = k
          · subst hk
            simp [hg]
          · rw [if_neg hk]
        · cases h

theorem fields_nodup (tn : Str) : ((fieldsOf tn).map TypeParam.name).Nodup := by
  unfold fieldsOf
  repeat' split
  all_goals decide

/-- The dict after a successful construction. -/
theorem fill_ok {name : Str} {d : Dict} {t : Ty} (h : mkType name d = .ok t) :
    ∃ d', fillDict (fieldsOf (upper name)) d = (none, d') ∧
      d'.all (fun p => (fieldsOf (upper name)).any (fun f => f.name == p.1)) = true ∧
      validateTy (upper name) (fun k => dget k d') = .ok t ∧ upper name ∈ allowedTypes ∧ ∀ k, dget k d' = dget k t.params := by
  have hd := (mkType_ok_iff name d t).1 h
  unfold mkType at h
  dsimp only at h
  split at h
  · rename_i ha
    have he := fillDict_eq (fieldsOf (upper name)) d
    cases hf : fillDict (fieldsOf (upper name)) d with
    | mk e d' =>
      rw [hf] at he
      cases e with
      | some e => rw [he] at h; cases h
      | none =>
        rw [he] at h
        dsimp only at h
        split at h
        · rename_i hall
          refine ⟨d', rfl, hall, h, ha, fun k => ?_⟩
          rw [fillDict_get _ d d' (fields_nodup _) hf k, fieldDefault_spec, ← hd.1]
          have := hd.2.2 k
          cases hk : dget k d with
          | some v => rw [hk] at this; simp [this]
          | none => rw [hk] at this; simp [this]
        · cases h
  · cases h

theorem newType_ok {name : Str} {r : Nat} {h : Dicts} {d : Dict} {t : Ty} (hr : h[r]? = some d) (hm : mkType name d = .ok t) :
    ∃ d', newType name r h = (.ok ⟨upper name, r⟩, h.set r d') ∧ (∀ k, dget k d' = dget k t.params) ∧
      fillDict (fieldsOf (upper name)) d = (none, d') := by
  obtain ⟨d', h1, h2, h3, h4, h5⟩ := fill_ok hm
  refine ⟨d', ?_, h5, h1⟩
  unfold newType
  rw [if_pos h4, hr]
  dsimp only
  rw [h1]
  dsimp only
  rw [if_pos h2, h3]

theorem newType_error {name : Str} {r : Nat} {h : Dicts} {d : Dict} {e : Err} (hr : h[r]? = some d) (hm : mkType name d = .error e) :
    (newType name r h).1 = .error e := by
  unfold mkType at hm
  unfold newType
  dsimp only at hm
  split at hm
  · rename_i ha
    rw [if_pos ha, hr]
    dsimp only
    have he := fillDict_eq (fieldsOf (upper name)) d
    cases hf : fillDict (fieldsOf (upper name)) d with
    | mk x d' =>
      rw [hf] at he
      rw [he] at hm
      cases x with
      | some x => dsimp only at hm ⊢; exact congrArg _ (Except.error.inj hm)
      | none =>
        dsimp only at hm ⊢
        split at hm
        · rename_i hall
          rw [if_pos hall, hm]
        · rename_i hall
          rw [if_neg hall]
          exact congrArg _ (Except.error.inj hm)
  · rename_i ha
    rw [if_neg ha]
    exact congrArg _ (Except.error.inj hm)

/-- Only the dict that was handed over is written to, and only defaults are added to it. -/
theorem newType_heap (name : Str) (r : Nat) (h : Dicts) : (newType name r h).2 = h ∨
    ∃ d, h[r]? = some d ∧ (newType name r h).2 = h.set r (fillDict (fieldsOf (upper name)) d).2 := by
  unfold newType
  split
  · cases hr : h[r]? with
    | none => exact .inl rfl
    | some d =>
      dsimp only
      refine .inr ⟨d, rfl, ?_⟩
      cases hf : fillDict (fieldsOf (upper name)) d with
      | mk x d' =>
        cases x with
        | some x => rfl
        | none =>
          dsimp only
          split
          · split <;> rfl
          · rfl
  · exact .inl rfl

theorem is_append {h : Dicts} {o : TypeObj} {t : Ty} (H : o.Is h t) (ds : Dicts) : o.Is (h ++ ds) t := by
  obtain ⟨h1, d, h2, h3⟩ := H
  exact ⟨h1, d, by rw [List.getElem?_append_left (List.getElem?_eq_some_iff.1 h2).1, h2], h3⟩

/-- The texts of component types. -/
theorem texts_dtypes : ∀ ts : List Ty, PVal.texts (ts.map .dtype) = .ok (Ty.sqlList ts)
  | [] => rfl
  | t :: ts => by
    simp only [List.map_cons, PVal.texts, PVal.text, Ty.sqlList]
    rw [texts_dtypes ts]
    rfl

theorem dict_empty {d : Dict} (h : ∀ k, dget k d = none) : d = [] := by
  cases d with
  | nil => rfl
  | cons p r => have := h p.1; simp [dget] at this

theorem not_empty {d : Dict} {k : Str} {v : PVal} (h : dget k d = some v) : d.isEmpty = false := by
  cases d with
  | nil => cases h
  | cons p r => rfl

end Treeno
