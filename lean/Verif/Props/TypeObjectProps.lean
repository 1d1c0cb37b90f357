import Verif.Lemmas.TypeObjects
/-!
# C75: data types as objects

The builder functions (treeno/datatypes/builder.py) and the dict of parameters behind a `DataType`.
-/
set_option autoImplicit false
namespace Treeno.Props
open Treeno Spec

/-- **C75.** `DataType(name, parameters=d)` gives the type with that name and those parameters, the missing ones at their
defaults, or raises if there is none; the object keeps `d`. -/
theorem C75_construct (name : Str) (r : Nat) (h : Dicts) (d : Dict) (hr : h[r]? = some d) (t : Ty) :
    (t.typeName = upper name ∧ InRange t ∧ Describes d t) ↔
      ∃ o, (newType name r h).1 = .ok o ∧ o.params = r ∧ o.Is (newType name r h).2 t := by
  constructor
  · intro hd
    obtain ⟨d', h1, h2, -⟩ := newType_ok hr ((mkType_ok_iff name d t).2 hd)
    refine ⟨_, by rw [h1], rfl, hd.1.symm, d', ?_, h2⟩
    rw [h1]
    exact List.getElem?_set_self (List.getElem?_eq_some_iff.1 hr).1
  · rintro ⟨o, h1, -, h2⟩
    cases hm : mkType name d with
    | error e => rw [newType_error hr hm] at h1; cases h1
    | ok t' =>
      have hd := (mkType_ok_iff name d t').1 hm
      obtain ⟨d', h3, h4, -⟩ := newType_ok hr hm
      rw [h3] at h1 h2
      cases h1
      obtain ⟨h5, d'', h6, h7⟩ := h2
      rw [show (h.set r d')[r]? = some d' from List.getElem?_set_self (List.getElem?_eq_some_iff.1 hr).1] at h6
      cases h6
      have : t' = t := by
        have e1 : mkType t'.typeName t'.params = .ok t' := (mkType_ok_iff _ _ _).2 ⟨(upper_typeName t').symm, hd.2.1, describes_self t'⟩
        have hn : t'.typeName = t.typeName := hd.1.trans h5
        have hp : ∀ k, dget k t'.params = dget k t.params := fun k => (h4 k).symm.trans (h7 k)
        have hi : InRange t := by
          have hd' : Describes t.params t := describes_self t
          revert hn hp
          cases t with
          | decimal p s =>
            cases t' <;> intro hn hp <;> first
              | (simp [Ty.typeName] at hn; done)
              | skip
            · rename_i s'; cases s' <;> simp [Ty.typeName, Simple.name] at hn
            · have := hp (c% "precision")
              simp [dget, Ty.params] at this
              have hr' := hd.2.1
              simp only [InRange] at hr' ⊢
              omega
          | time p z =>
            cases t' <;> intro hn hp <;> first
              | (simp [Ty.typeName] at hn; done)
              | skip
            · rename_i s'; cases s' <;> simp [Ty.typeName, Simple.name] at hn
            · rename_i p' z'
              have := hp (c% "precision")
              have hr' := hd.2.1
              cases p <;> cases p' <;> simp [dget, Ty.params] at this
              · trivial
              · subst this; exact hr'
          | timestamp p z =>
            cases t' <;> intro hn hp <;> first
              | (simp [Ty.typeName] at hn; done)
              | skip
            · rename_i s'; cases s' <;> simp [Ty.typeName, Simple.name] at hn
            · rename_i p' z'
              have := hp (c% "precision")
              have hr' := hd.2.1
              cases p <;> cases p' <;> simp [dget, Ty.params] at this
              · trivial
              · subst this; exact hr'
          | _ => intros; trivial
        have e2 : mkType t.typeName t.params = .ok t := (mkType_ok_iff _ _ _).2 ⟨(upper_typeName t).symm, hi, describes_self t⟩
        have e3 : mkType t'.typeName t'.params = mkType t.typeName t.params := mkType_congr (by rw [hn]) hp
        rw [e1, e2] at e3
        exact Except.ok.inj e3
      rw [← this]
      exact hd

/-- `DataType("decimal", {"scale": 3})` -/
example : newType (c% "decimal") 0 [[(c% "scale", .int 3)]] =
    (.ok ⟨c% "DECIMAL", 0⟩, [[(c% "scale", .int 3), (c% "precision", .int 38)]]) := rfl

/-- **C75.** The text of an object is the text of the type it is. -/
theorem C75_text {h : Dicts} {o : TypeObj} {t : Ty} (H : o.Is h t) : o.sql h = .ok t.sql := by
  obtain ⟨n, r⟩ := o
  obtain ⟨h1, d, h2, h3⟩ := H
  dsimp only at h1 h2
  subst h1
  unfold TypeObj.sql
  dsimp only
  rw [h2]
  dsimp only
  cases t with
  | simple s =>
    obtain rfl := dict_empty h3
    cases s <;> rfl
  | decimal p s =>
    have e1 : dget (c% "precision") d = some (.int p) := h3 _
    have e2 : dget (c% "scale") d = some (.int s) := h3 _
    rw [if_neg (by simp [Ty.typeName]), if_neg (by simp [Ty.typeName]), if_neg (by simp [Ty.typeName]), not_empty e1]
    show (do let ts ← fieldTexts d [⟨c% "precision", false, .int, some (.int 38)⟩, ⟨c% "scale", false, .int, some (.int 0)⟩]; _) = _
    rw [fieldTexts, e1]
    dsimp only
    rw [fieldTexts, e2]
    show Except.ok _ = _
    simp only [Ty.sql, Ty.typeName, join, List.append_assoc]
    rfl
  | varchar n =>
    rw [if_neg (by simp [Ty.typeName]), if_neg (by simp [Ty.typeName]), if_neg (by simp [Ty.typeName])]
    cases n with
    | none =>
      obtain rfl := dict_empty h3
      rfl
    | some n =>
      have e1 : dget (c% "max_chars") d = some (.int n) := h3 _
      rw [not_empty e1]
      show (do let ts ← fieldTexts d [⟨c% "max_chars", false, .int, none⟩]; _) = _
      rw [fieldTexts, e1]
      rfl
  | char n =>
    rw [if_neg (by simp [Ty.typeName]), if_neg (by simp [Ty.typeName]), if_neg (by simp [Ty.typeName])]
    have e1 : dget (c% "max_chars") d = some (.int n) := h3 _
    rw [not_empty e1]
    show (do let ts ← fieldTexts d [⟨c% "max_chars", false, .int, some (.int 1)⟩]; _) = _
    rw [fieldTexts, e1]
    rfl
  | time p z =>
    rw [if_pos (by simp [Ty.typeName])]
    have e2 : dget (c% "timezone") d = some (.bool z) := by rw [h3]; cases p <;> rfl
    cases p with
    | none =>
      have e1 : dget (c% "precision") d = none := h3 _
      unfold emitTimelike
      rw [e1, e2]
      cases z <;> rfl
    | some p =>
      have e1 : dget (c% "precision") d = some (.int p) := h3 _
      unfold emitTimelike
      rw [e1, e2]
      cases z <;> rfl
  | timestamp p z =>
    rw [if_pos (by simp [Ty.typeName])]
    have e2 : dget (c% "timezone") d = some (.bool z) := by rw [h3]; cases p <;> rfl
    cases p with
    | none =>
      have e1 : dget (c% "precision") d = none := h3 _
      unfold emitTimelike
      rw [e1, e2]
      cases z <;> rfl
    | some p =>
      have e1 : dget (c% "precision") d = some (.int p) := h3 _
      unfold emitTimelike
      rw [e1, e2]
      cases z <;> rfl
  | interval k =>
    rw [if_neg (by simp [Ty.typeName]), if_pos (by simp [Ty.typeName])]
    have e1 : dget (c% "from_interval") d = some (.str k.fromS) := h3 _
    have e2 : dget (c% "to_interval") d = some (.str k.toS) := h3 _
    unfold emitInterval Dict.at_
    rw [e1, e2]
    cases k <;> rfl
  | array t =>
    rw [if_neg (by simp [Ty.typeName]), if_neg (by simp [Ty.typeName]), if_neg (by simp [Ty.typeName])]
    have e1 : dget (c% "dtype") d = some (.dtype t) := h3 _
    rw [not_empty e1]
    show (do let ts ← fieldTexts d [⟨c% "dtype", true, .dtype, none⟩]; _) = _
    rw [fieldTexts, e1]
    rfl
  | map a b =>
    rw [if_neg (by simp [Ty.typeName]), if_neg (by simp [Ty.typeName]), if_neg (by simp [Ty.typeName])]
    have e1 : dget (c% "from_dtype") d = some (.dtype a) := h3 _
    have e2 : dget (c% "to_dtype") d = some (.dtype b) := h3 _
    rw [not_empty e1]
    show (do let ts ← fieldTexts d [⟨c% "from_dtype", true, .dtype, none⟩, ⟨c% "to_dtype", true, .dtype, none⟩]; _) = _
    rw [fieldTexts, e1]
    dsimp only
    rw [fieldTexts, e2]
    show Except.ok _ = _
    simp only [Ty.sql, Ty.typeName, join, List.append_assoc]
    rfl
  | row l =>
    rw [if_neg (by simp [Ty.typeName]), if_neg (by simp [Ty.typeName]), if_pos (by simp [Ty.typeName])]
    have e1 : dget (c% "dtypes") d = some (.list (l.map .dtype)) := h3 _
    unfold emitRow Dict.at_
    rw [e1]
    show (do let ts ← PVal.texts (l.map .dtype); _) = _
    rw [texts_dtypes]
    rfl
  | qdigest t =>
    rw [if_neg (by simp [Ty.typeName]), if_neg (by simp [Ty.typeName]), if_neg (by simp [Ty.typeName])]
    have e1 : dget (c% "dtype") d = some (.dtype t) := h3 _
    rw [not_empty e1]
    show (do let ts ← fieldTexts d [⟨c% "dtype", true, .dtype, none⟩]; _) = _
    rw [fieldTexts, e1]
    rfl

example : (TypeObj.mk (c% "MAP") 0).Is [[(c% "to_dtype", .dtype (.decimal 5 2)), (c% "from_dtype", .dtype (.varchar none))]]
    (.map (.varchar none) (.decimal 5 2)) := by
  refine ⟨rfl, _, rfl, fun k => ?_⟩
  simp only [dget, Ty.params]
  by_cases h1 : k = c% "to_dtype"
  · subst h1; rfl
  by_cases h2 : k = c% "from_dtype"
  · subst h2; rfl
  have e1 : ((c% "to_dtype") == k) = false := by simpa using fun e => h1 e.symm
  have e2 : ((c% "from_dtype") == k) = false := by simpa using fun e => h2 e.symm
  simp [e1, e2]

/-! ## The dict that is handed over -/

/-- **C75.** The zone is printed by what the dict holds when the text is asked for, also if the caller has changed it since: it
is left out exactly for the values that Python takes for false. -/
theorem C75_zone {h : Dicts} {o : TypeObj} {d : Dict} {v : PVal} (ho : h[o.params]? = some d)
    (hn : o.name = c% "TIME" ∨ o.name = c% "TIMESTAMP") (hp : dget (c% "precision") d = none) (hv : dget (c% "timezone") d = some v) :
    ((v = .int 0 ∨ v = .bool false ∨ v = .str [] ∨ v = .list [] ∨ v = .none) → o.sql h = .ok o.name) ∧
    (¬ (v = .int 0 ∨ v = .bool false ∨ v = .str [] ∨ v = .list [] ∨ v = .none) → o.sql h = .ok (o.name ++ c% " WITH TIME ZONE")) := by
  have e : o.sql h = .ok (o.name ++ [] ++ (if v.truthy then c% " WITH TIME ZONE" else [])) := by
    rw [TypeObj.sql, ho]
    show (if _ then emitTimelike o.name d else _) = _
    rw [if_pos hn.symm, emitTimelike, hp, hv]; rfl
  rw [e, List.append_nil]
  constructor
  · rintro (rfl | rfl | rfl | rfl | rfl) <;> simp [PVal.truthy]
  · intro hf
    have ht : v.truthy = true := by
      cases v with
      | int i => exact bne_iff_ne.mpr fun e => hf (.inl (e ▸ rfl))
      | bool b => cases b with
        | false => exact absurd (.inr (.inl rfl)) hf
        | true => rfl
      | str s => cases s with
        | nil => exact absurd (.inr (.inr (.inl rfl))) hf
        | cons _ _ => rfl
      | dtype _ => rfl
      | list l => cases l with
        | nil => exact absurd (.inr (.inr (.inr (.inl rfl)))) hf
        | cons _ _ => rfl
      | none => exact absurd (.inr (.inr (.inr (.inr rfl)))) hf
    rw [ht]; rfl

/-- `t = DataType("TIME", d); d["timezone"] = 1` -/
example : TypeObj.sql [[(c% "timezone", .int 1)]] ⟨c% "TIME", 0⟩ = .ok (c% "TIME WITH TIME ZONE") :=
  (C75_zone rfl (.inl rfl) rfl rfl).2 (by simp)

/-- **C75.** Building a type, whether or not it succeeds, changes no dict but the one that was handed over. -/
theorem C75_others (name : Str) (r : Nat) (h : Dicts) (r' : Nat) (hr : r' ≠ r) : (newType name r h).2[r']? = h[r']? := by
  rcases newType_heap name r h with e | ⟨d, -, e⟩
  · rw [e]
  · rw [e, List.getElem?_set_ne (Ne.symm hr)]

/-- **C75.** That one keeps its entries, and all that is added are parameters of the type that it did not have, at their
defaults. -/
theorem C75_added (name : Str) (r : Nat) (h : Dicts) (d : Dict) (hr : h[r]? = some d) :
    ∃ a, (newType name r h).2[r]? = some (d ++ a) ∧
      ∀ p ∈ a, dget p.1 d = none ∧ defaultParam (upper name) p.1 = some p.2 := by
  rcases newType_heap name r h with e | ⟨d', hd, e⟩
  · exact ⟨[], by rw [e, hr]; simp, by simp⟩
  · rw [hr] at hd
    cases hd
    obtain ⟨a, h1, h2⟩ := fillDict_keeps (fieldsOf (upper name)) d
    refine ⟨a, ?_, ?_⟩
    · rw [e, h1]
      exact List.getElem?_set_self (List.getElem?_eq_some_iff.1 hr).1
    · intro p hp
      obtain ⟨f, hf, h3, h4, h5, h6⟩ := h2 p hp
      rw [hasKey_isSome] at h6
      refine ⟨by simpa using h6, ?_⟩
      rw [← fieldDefault_spec, ← h5, fieldDefault_mem _ (fields_nodup _) f hf h3, h4]

/-- **C75.** A type is built without changing the dict exactly if every parameter that has a default is given. -/
theorem C75_unchanged (name : Str) (r : Nat) (h : Dicts) (d : Dict) (hr : h[r]? = some d) (o : TypeObj)
    (ho : (newType name r h).1 = .ok o) :
    (newType name r h).2 = h ↔ ∀ k v, defaultParam (upper name) k = some v → (dget k d).isSome := by
  cases hm : mkType name d with
  | error e => rw [newType_error hr hm] at ho; cases ho
  | ok t =>
    obtain ⟨d', h1, -, h2⟩ := newType_ok hr hm
    have hg := fillDict_get _ d d' (fields_nodup _) h2
    obtain ⟨a, h3, h4⟩ := fillDict_keeps (fieldsOf (upper name)) d
    rw [h2] at h3
    dsimp only at h3
    have hlt := (List.getElem?_eq_some_iff.1 hr).1
    rw [h1]
    show h.set r d' = h ↔ _
    constructor
    · intro he k v hk
      have : (h.set r d')[r]? = some d' := List.getElem?_set_self hlt
      rw [he, hr] at this
      cases this
      have := hg k
      rw [fieldDefault_spec, hk] at this
      cases hd : dget k d with
      | some v => rfl
      | none => rw [hd] at this; simp at this
    · intro hall
      cases a with
      | nil =>
        rw [List.append_nil] at h3
        subst h3
        rw [List.getElem?_eq_some_iff] at hr
        obtain ⟨_, rfl⟩ := hr
        exact List.set_getElem_self hlt
      | cons p a =>
        obtain ⟨f, hf, h5, h6, h7, h8⟩ := h4 p List.mem_cons_self
        have := hall p.1 p.2 (by
          rw [← fieldDefault_spec, ← h7, fieldDefault_mem _ (fields_nodup _) f hf h5, h6])
        rw [hasKey_isSome, Bool.eq_false_iff] at h8
        exact absurd this h8

example : (newType (c% "TIME") 0 [[(c% "timezone", .bool true)]]).1 = .ok ⟨c% "TIME", 0⟩ ∧
    (newType (c% "TIME") 0 [[(c% "timezone", .bool true)]]).2 = [[(c% "timezone", .bool true)]] := ⟨rfl, rfl⟩

/-- **C75.** Building a type of the same name from the dict once more gives the same type and changes nothing. -/
theorem C75_again (name : Str) (r : Nat) (h h' : Dicts) (o : TypeObj) (H : newType name r h = (.ok o, h')) :
    newType name r h' = (.ok o, h') := by
  cases hr : h[r]? with
  | none =>
    unfold newType at H
    rw [hr] at H
    split at H <;> cases H
  | some d =>
    cases hm : mkType name d with
    | error e => have := newType_error hr hm; rw [H] at this; cases this
    | ok t =>
      obtain ⟨d', h1, h2, h3⟩ := newType_ok hr hm
      rw [H] at h1
      cases h1
      have hlt := (List.getElem?_eq_some_iff.1 hr).1
      have hr' : (h.set r d')[r]? = some d' := List.getElem?_set_self hlt
      have hd := (mkType_ok_iff name d t).1 hm
      have hm' : mkType name d' = .ok t := by
        rw [mkType_congr (m := t.typeName) (qs := t.params) (by rw [hd.1, ← hd.1, upper_typeName]) h2]
        exact (mkType_ok_iff _ _ _).2 ⟨(upper_typeName t).symm, hd.2.1, describes_self t⟩
      obtain ⟨d'', h4, -, h6⟩ := newType_ok hr' hm'
      have hun : newType name r (h.set r d') = (.ok ⟨upper name, r⟩, (newType name r (h.set r d')).2) := by rw [h4]
      have := (C75_unchanged name r (h.set r d') d' hr' ⟨upper name, r⟩ (by rw [h4])).2 (fun k v hk => by
        have hg := fillDict_get _ d d' (fields_nodup _) h3 k
        rw [fieldDefault_spec, hk] at hg
        rw [hg]
        cases dget k d <;> rfl)
      rw [hun, this]

/-- **C75.** A type that shares its dict with another one stays what it is exactly if the other one adds no default to it. -/
theorem C75_shared_exact (name : Str) (h : Dicts) (o o' : TypeObj) (t : Ty) (H : o.Is h t)
    (ho : (newType name o.params h).1 = .ok o') :
    o.Is (newType name o.params h).2 t ↔ ∀ k v, defaultParam (upper name) k = some v → (dget k t.params).isSome := by
  obtain ⟨h1, d, h2, h3⟩ := H
  have hu := C75_unchanged name o.params h d h2 o' ho
  constructor
  · rintro ⟨-, d', h4, h5⟩ k v hk
    cases hm : mkType name d with
    | error e => rw [newType_error h2 hm] at ho; cases ho
    | ok t' =>
      obtain ⟨d'', e1, -, e2⟩ := newType_ok h2 hm
      rw [e1, show (h.set o.params d'')[o.params]? = some d'' from List.getElem?_set_self (List.getElem?_eq_some_iff.1 h2).1] at h4
      cases h4
      rw [← h5, fillDict_get _ d d' (fields_nodup _) e2 k, fieldDefault_spec, hk]
      cases dget k d <;> rfl
  · intro hk
    rw [hu.2 (fun k v e => by rw [h3]; exact hk k v e)]
    exact ⟨h1, d, h2, h3⟩

/-- `DataType("VARCHAR", d)` and then `DataType("CHAR", d)` with `d = {"max_chars": 5}` -/
example : (TypeObj.mk (c% "VARCHAR") 0).Is [[(c% "max_chars", .int 5)]] (.varchar (some 5)) ∧
    (newType (c% "CHAR") 0 [[(c% "max_chars", .int 5)]]).1 = .ok ⟨c% "CHAR", 0⟩ := ⟨⟨rfl, _, rfl, fun _ => rfl⟩, rfl⟩

/-- **C75, false of the code.** The caller's dict is changed, so a second type cannot be built from it: after
`DataType("DECIMAL", d)` with `d = {"precision": 3}`, `DataType("TIME", d)` raises, which it does not on its own. -/
theorem C75_dict_kept_false : ∃ (d : Dict) (o o' : TypeObj) (h : Dicts), newType (c% "DECIMAL") 0 [d] = (.ok o, h) ∧ h ≠ [d] ∧
    (newType (c% "TIME") 0 [d]).1 = .ok o' ∧ (newType (c% "TIME") 0 h).1 = .error .assertion :=
  ⟨[(c% "precision", .int 3)], ⟨c% "DECIMAL", 0⟩, ⟨c% "TIME", 0⟩, [[(c% "precision", .int 3), (c% "scale", .int 0)]], rfl, by simp, rfl, rfl⟩

/-- **C75, false of the code.** A type changes when another one is built from the same dict: with `d = {}`, the text of
`DataType("VARCHAR", d)` is `VARCHAR` at first and `VARCHAR(1)` after `DataType("CHAR", d)`; after `DataType("TIME", d)` it
cannot be printed. -/
theorem C75_shared_false : ∃ (o o' o'' : TypeObj) (h h' : Dicts), newType (c% "VARCHAR") 0 [[]] = (.ok o, [[]]) ∧
    o.sql [[]] = .ok (c% "VARCHAR") ∧
    newType (c% "CHAR") 0 [[]] = (.ok o', h) ∧ o.sql h = .ok (c% "VARCHAR(1)") ∧
    newType (c% "TIME") 0 [[]] = (.ok o'', h') ∧ o.sql h' = .error .assertion :=
  ⟨⟨c% "VARCHAR", 0⟩, ⟨c% "CHAR", 0⟩, ⟨c% "TIME", 0⟩, [[(c% "max_chars", .int 1)]], [[(c% "timezone", .bool false)]], rfl, rfl, rfl, rfl, rfl, rfl⟩

/-! ## Builders -/

theorem const_upper (b : Builder) : upper b.const = named b := by cases b <;> rfl

theorem dget_nil_of_closed {b : Builder} (hb : b.open_ = false) {kw : Dict} {t : Ty} (H : Built b kw t) : kw = [] := by
  obtain ⟨h1, -, h3⟩ := H
  refine dict_empty fun k => ?_
  have hs : t.params = [] := by
    cases t with
    | simple s => rfl
    | _ => cases b <;> first | (cases hb; done) | (cases h1; done)
  have := h3 k
  rw [hs] at this
  cases hk : dget k kw with
  | none => rfl
  | some v => rw [hk] at this; cases this

/-- **C75.** The builder function of a type without parameters takes no arguments: anything given to it is refused as a
wrong call (`TypeError`) and no object is made.  All other builder functions look at what they are given. -/
theorem C75_no_arguments (b : Builder) (kw : Dict) (h : Dicts) (hk : kw ≠ []) :
    (fieldsOf (named b) = [] → b.call kw h = (.error .typeError, h)) ∧
    (fieldsOf (named b) ≠ [] → b.call kw h = newType (named b) h.length (h ++ [kw])) := by
  have he : kw.isEmpty = false := by cases kw with
    | nil => exact absurd rfl hk
    | cons => rfl
  constructor
  · intro hf
    have ho : b.open_ = false := by cases b <;> first | rfl | exact absurd hf (by decide +kernel)
    unfold Builder.call
    rw [ho, he]
    rfl
  · intro hf
    have ho : b.open_ = true := by cases b <;> first | rfl | exact absurd (by decide +kernel) hf
    have hn : b.const = named b := by cases b <;> rfl
    unfold Builder.call
    rw [ho, hn]
    rfl

example : Builder.call .date [(c% "precision", .int 3)] [] = (.error .typeError, []) :=
  (C75_no_arguments .date _ [] (by simp)).1 rfl
example : Builder.call .time [(c% "precision", .int 3)] [] = newType (c% "TIME") 0 [[(c% "precision", .int 3)]] :=
  (C75_no_arguments .time _ [] (by simp)).2 (by simp [fieldsOf, named])

/-- **C75.** A builder function gives the type it is named after with the given parameters, the others at their defaults;
it raises if there is no such type. -/
theorem C75_builder (b : Builder) (kw : Dict) (h : Dicts) (t : Ty) :
    Built b kw t ↔ ∃ o, (b.call kw h).1 = .ok o ∧ o.params = h.length ∧ o.Is (b.call kw h).2 t := by
  have hlast : ∀ d : Dict, (h ++ [d])[h.length]? = some d := fun d => by simp
  cases hb : b.open_ with
  | true =>
    have hc : b.call kw h = newType b.const h.length (h ++ [kw]) := by
      unfold Builder.call
      rw [hb]
      rfl
    rw [hc]
    have := C75_construct b.const h.length (h ++ [kw]) kw (hlast kw) t
    rw [const_upper] at this
    exact this
  | false =>
    have hc : b.call kw h = if kw.isEmpty then newType b.const h.length (h ++ [[]]) else (.error .typeError, h) := by
      unfold Builder.call
      rw [hb]
      rfl
    cases kw with
    | nil =>
      rw [hc]
      have := C75_construct b.const h.length (h ++ [[]]) [] (hlast []) t
      rw [const_upper] at this
      exact this
    | cons p kw =>
      rw [hc]
      constructor
      · intro H
        exact nomatch dget_nil_of_closed hb H
      · rintro ⟨o, h1, -⟩
        cases h1

/-- `decimal(precision=29, scale=1)`, the example of README.md. -/
example : Built .decimal [(c% "precision", .int 29), (c% "scale", .int 1)] (.decimal 29 1) :=
  ⟨rfl, by decide, describes_self (.decimal 29 1)⟩

/-- **C75.** The builder functions change none of the dicts there are. -/
theorem C75_builder_others (b : Builder) (kw : Dict) (h : Dicts) : ∃ ds, (b.call kw h).2 = h ++ ds := by
  have key : ∀ d : Dict, ∃ ds, (newType b.const h.length (h ++ [d])).2 = h ++ ds := by
    intro d
    rcases newType_heap b.const h.length (h ++ [d]) with e | ⟨d', -, e⟩
    · exact ⟨_, e⟩
    · refine ⟨[(fillDict (fieldsOf (upper b.const)) d').2], ?_⟩
      rw [e, List.set_append_right _ _ (Nat.le_refl _)]
      simp
  unfold Builder.call
  split
  · exact key kw
  · split
    · exact key []
    · exact ⟨[], by simp⟩

/-- **C75.** So in any sequence of builder calls each one gives, for good, the type of its own name and arguments: the
objects are what they were built as after all calls are made, and have its text. -/
theorem C75_builders (cs : List (Builder × Dict)) (h : Dicts) (i : Nat) (b : Builder) (kw : Dict) (hi : cs[i]? = some (b, kw)) (t : Ty)
    (H : Built b kw t) : ∃ o, (calls cs h).1[i]? = some (.ok o) ∧ o.Is (calls cs h).2 t ∧ o.sql (calls cs h).2 = .ok t.sql := by
  have grow : ∀ (cs : List (Builder × Dict)) (h : Dicts), ∃ ds, (calls cs h).2 = h ++ ds := by
    intro cs
    induction cs with
    | nil => exact fun h => ⟨[], by simp [calls]⟩
    | cons c cs ih =>
      intro h
      obtain ⟨b, kw⟩ := c
      obtain ⟨d1, e1⟩ := C75_builder_others b kw h
      obtain ⟨d2, e2⟩ := ih (b.call kw h).2
      refine ⟨d1 ++ d2, ?_⟩
      show (calls cs (b.call kw h).2).2 = _
      rw [e2, e1, List.append_assoc]
  have main : ∃ o, (calls cs h).1[i]? = some (.ok o) ∧ o.Is (calls cs h).2 t := by
    induction cs generalizing h i with
    | nil => cases hi
    | cons c cs ih =>
      cases i with
      | zero =>
        cases hi
        obtain ⟨o, h1, -, h3⟩ := (C75_builder b kw h t).1 H
        obtain ⟨ds, e⟩ := grow cs (b.call kw h).2
        refine ⟨o, congrArg some h1, ?_⟩
        show o.Is (calls cs (b.call kw h).2).2 t
        rw [e]
        exact is_append h3 ds
      | succ i =>
        obtain ⟨b', kw'⟩ := c
        exact ih (b'.call kw' h).2 i hi
  obtain ⟨o, h1, h2⟩ := main
  exact ⟨o, h1, h2, C75_text h2⟩

/-- `char(); varchar(); boolean(max_chars=1); time(precision=3)`: the third call raises. -/
theorem C75_builders_reached : Built .char [] (.char 1) ∧ Built .varchar [] (.varchar none) ∧ Built .time [(c% "precision", .int 3)] (.time (some 3) false) ∧
    (calls [(.char, []), (.varchar, []), (.boolean, [(c% "max_chars", .int 1)]), (.time, [(c% "precision", .int 3)])] []).1 =
      [.ok ⟨c% "CHAR", 0⟩, .ok ⟨c% "VARCHAR", 1⟩, .error .typeError, .ok ⟨c% "TIME", 2⟩] := by
  refine ⟨?_, ?_, ?_, by decide +kernel⟩
  · exact (mkType_ok_iff (c% "CHAR") [] _).1 (by decide +kernel)
  · exact (mkType_ok_iff (c% "VARCHAR") [] _).1 (by decide +kernel)
  · exact (mkType_ok_iff (c% "TIME") [(c% "precision", .int 3)] _).1 (by decide +kernel)

end Treeno.Props
