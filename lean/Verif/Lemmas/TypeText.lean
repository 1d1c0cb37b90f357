import Verif.Lemmas.TypeParse
import Verif.Lemmas.TypeSound
/-!
# Lemmas on the text of data types: printing then reading, reading then printing
-/
namespace Treeno
open Spec

/-- Reading an integer parameter gives its value. -/
theorem conv_intParam {i : Int} (h : 0 ≤ i) : (intParam i).conv = .ok (.int i) := by
  show Except.ok (PVal.int (digitsVal (natStr i.toNat))) = _
  rw [natStr_val, Int.toNat_of_nonneg h]

theorem valid_inRange {t : Ty} (h : Valid t) : InRange t := by
  cases h with
  | time p z h => cases p with
    | none => trivial
    | some q => exact h q rfl
  | timestamp p z h => cases p with
    | none => trivial
    | some q => exact h q rfl
  | decimal p s h1 h2 => exact ⟨h1, h2⟩
  | _ => trivial

mutual
theorem conv_tyCst : ∀ t : Ty, Valid t → Readable t → (tyCst t).conv = .ok t
  | .simple s, h, _ => by cases s <;> rfl
  | .decimal p s, h, hr => by
    cases hr with
    | decimal _ _ h1 h2 =>
    simp only [tyCst, CTy.conv, CTParam.convs, conv_intParam h1, conv_intParam h2]
    exact mkType_self _ (valid_inRange h)
  | .varchar none, _, _ => rfl
  | .varchar (some n), h, hr => by
    cases hr with
    | varchar _ h1 =>
    simp only [tyCst, CTy.conv, CTParam.convs, conv_intParam (h1 n rfl)]
    exact mkType_self (.varchar (some n)) (valid_inRange h)
  | .char n, h, hr => by
    cases hr with
    | char _ h1 =>
    simp only [tyCst, CTy.conv, CTParam.convs, conv_intParam h1]
    exact mkType_self (.char n) (valid_inRange h)
  | .time p z, h, hr => by
    cases hr with
    | time _ _ h1 =>
    cases p with
    | none =>
      cases z <;> exact mkType_self (.time none _) (valid_inRange h)
    | some p =>
      simp only [tyCst, CTy.conv, Option.map, CTParam.convOpt, conv_intParam (h1 p rfl)]
      cases z <;> exact mkType_self (.time (some p) _) (valid_inRange h)
  | .timestamp p z, h, hr => by
    cases hr with
    | timestamp _ _ h1 =>
    cases p with
    | none =>
      cases z <;> exact mkType_self (.timestamp none _) (valid_inRange h)
    | some p =>
      simp only [tyCst, CTy.conv, Option.map, CTParam.convOpt, conv_intParam (h1 p rfl)]
      cases z <;> exact mkType_self (.timestamp (some p) _) (valid_inRange h)
  | .interval k, _, _ => by cases k <;> rfl
  | .array t, h, hr => by
    cases h with | array _ h1 =>
    cases hr with | array _ h2 =>
    simp only [tyCst, CTy.conv, CTParam.convs, CTParam.conv, conv_tyCst t h1 h2]
    exact mkType_self (.array t) trivial
  | .map a b, h, hr => by
    cases h with | map _ _ h1 h1' =>
    cases hr with | map _ _ h2 h2' =>
    simp only [tyCst, CTy.conv, CTParam.convs, CTParam.conv, conv_tyCst a h1 h2, conv_tyCst b h1' h2']
    exact mkType_self (.map a b) trivial
  | .row l, h, hr => by
    cases h with | row _ h1 =>
    cases hr with | row _ h0 h2 =>
    simp only [tyCst, CTy.conv, conv_tyCsts l h1 h2]
    exact mkType_self (.row l) trivial
  | .qdigest t, h, hr => by
    cases h with | qdigest _ h1 =>
    cases hr with | qdigest _ h2 =>
    simp only [tyCst, CTy.conv, CTParam.convs, CTParam.conv, conv_tyCst t h1 h2]
    exact mkType_self (.qdigest t) trivial
theorem conv_tyCsts : ∀ l : List Ty, (∀ t ∈ l, Valid t) → (∀ t ∈ l, Readable t) →
    CField.convs (tyCsts l) = .ok l
  | [], _, _ => rfl
  | t :: r, h, hr => by
    simp only [tyCsts, CField.convs, CField.conv, conv_tyCst t (h t (by simp)) (hr t (by simp)),
      conv_tyCsts r (fun u hu => h u (by simp [hu])) (fun u hu => hr u (by simp [hu]))]
    rfl
end

/-- The text of a type, read by the type parser. -/
theorem pType_sql (t : Ty) (h : Readable t) : pType (toks t.sql) = some (tyCst t, []) := by
  rw [pType, (lx_ty t).toks]
  have := parse_ty t h [] rfl (3 * (tyToks t).length + 3) (by omega)
  simpa using this

theorem typeFromSql_sql (t : Ty) (hv : Valid t) (h : Readable t) : typeFromSql t.sql = .ok t := by
  rw [typeFromSql, pType_sql t h]
  exact conv_tyCst t hv h

/-! ## What can be read -/

/-- No negative number, only readable and valid types. -/
def PValR : PVal → Prop
  | .int i => 0 ≤ i
  | .dtype t => Readable t ∧ Valid t
  | .list l => l ≠ [] ∧ ∀ t, PVal.dtype t ∈ l → Readable t ∧ Valid t
  | _ => True

theorem PValR.ok {v : PVal} (h : PValR v) : PValOk v := by
  cases v with
  | dtype t => exact h.2
  | list l => exact fun t ht => (h.2 t ht).2
  | _ => trivial

theorem mkType_readable {name : Str} {ps : List (Str × PVal)} {t : Ty} (h : mkType name ps = .ok t)
    (hs : ∀ k v, dget k ps = some v → PValR v) : Readable t ∧ Valid t := by
  refine ⟨?_, mkType_valid h (fun k v hk => (hs k v hk).ok)⟩
  obtain ⟨_, h2, h3⟩ := (mkType_ok_iff name ps t).1 h
  have look : ∀ k v, dget k t.params = some v → (∀ w, defaultParam t.typeName k = some w → PValR w) → PValR v := by
    intro k v hv hd
    have := h3 k
    cases hk : dget k ps with
    | some w =>
      rw [hk] at this
      have e : some v = some w := hv.symm.trans this
      cases e
      exact hs k _ hk
    | none =>
      rw [hk] at this
      exact hd v (this.symm.trans hv)
  cases t with
  | simple s => exact .simple s
  | decimal p s =>
    refine .decimal p s (look (c% "precision") (.int p) rfl ?_) (look (c% "scale") (.int s) rfl ?_)
    · intro w hw; cases hw; show (0 : Int) ≤ 38; omega
    · intro w hw; cases hw; show (0 : Int) ≤ 0; omega
  | varchar n =>
    refine .varchar n ?_
    rintro m rfl
    exact look (c% "max_chars") (.int m) rfl (fun w hw => by cases hw)
  | char n =>
    refine .char n (look (c% "max_chars") (.int n) rfl ?_)
    intro w hw; cases hw; show (0 : Int) ≤ 1; omega
  | time p z =>
    refine .time p z ?_
    rintro q rfl
    exact h2.1
  | timestamp p z =>
    refine .timestamp p z ?_
    rintro q rfl
    exact h2.1
  | interval k => exact .interval k
  | array a => exact .array a (look (c% "dtype") (.dtype a) rfl (fun w hw => by cases hw)).1
  | qdigest a => exact .qdigest a (look (c% "dtype") (.dtype a) rfl (fun w hw => by cases hw)).1
  | map a b =>
    exact .map a b (look (c% "from_dtype") (.dtype a) rfl (fun w hw => by cases hw)).1
      (look (c% "to_dtype") (.dtype b) rfl (fun w hw => by cases hw)).1
  | row l =>
    have hl : PValR (.list (l.map .dtype)) :=
      look (c% "dtypes") (.list (l.map .dtype)) rfl (fun w hw => by cases hw)
    exact .row l (fun e => hl.1 (by simp [e])) (fun t ht => (hl.2 t (List.mem_map_of_mem ht)).1)

theorem dget_zipFields_mem {k : Str} {v : PVal} : ∀ {l : List (PVal × TypeParam)},
    dget k (l.map fun p => (p.2.name, p.1)) = some v → v ∈ l.map Prod.fst
  | [], h => by simp [dget] at h
  | p :: l, h => by
    simp only [List.map_cons, dget] at h
    split at h
    · cases h; simp
    · exact List.mem_cons_of_mem _ (dget_zipFields_mem h)

theorem mem_zip_fst {α β} {a : α} : ∀ {l : List α} {m : List β}, a ∈ (l.zip m).map Prod.fst → a ∈ l
  | [], _, h => by simp at h
  | x :: l, [], h => by simp at h
  | x :: l, y :: m, h => by
    simp only [List.zip_cons_cons, List.map_cons, List.mem_cons] at h
    rcases h with rfl | h
    · simp
    · exact List.mem_cons_of_mem _ (mem_zip_fst h)

theorem bind_ok {α β} {x : Except Err α} {f : α → Except Err β} {b : β} (h : (x >>= f) = .ok b) :
    ∃ a, x = .ok a ∧ f a = .ok b := by
  cases x with
  | error e => cases h
  | ok a => exact ⟨a, rfl, h⟩

mutual
/-- Every type the visitor builds from a derivation is readable and valid. -/
theorem conv_readable : ∀ (c : CTy) (ts : List Tok) (t : Ty), GTy c ts → c.conv = .ok t → Readable t ∧ Valid t
  | .row fs, _, t, hg, h => by
    cases hg with
    | row _ _ hf _ =>
    simp only [CTy.conv] at h
    obtain ⟨us, h1, h2⟩ := bind_ok h
    have hr := convs_readable fs _ us hf h1
    refine mkType_readable h2 ?_
    intro k v hk
    simp only [dget] at hk
    split at hk
    · cases hk
      refine ⟨?_, ?_⟩
      · intro e; exact hr.1 (List.map_eq_nil_iff.1 e)
      · intro t ht
        obtain ⟨u, hu, e⟩ := List.mem_map.1 ht
        cases e
        exact hr.2 _ hu
    · simp at hk
  | .interval f to, _, t, hg, h => by
    refine mkType_readable h ?_
    intro k v hk
    have : ∃ s, v = .str s := by
      cases to with
      | none =>
        simp only [dget] at hk
        split at hk
        · cases hk; exact ⟨_, rfl⟩
        · simp at hk
      | some g =>
        simp only [dget] at hk
        split at hk
        · cases hk; exact ⟨_, rfl⟩
        · split at hk
          · cases hk; exact ⟨_, rfl⟩
          · simp at hk
    obtain ⟨s, rfl⟩ := this
    trivial
  | .datetime b p z, _, t, hg, h => by
    have hp : ∃ ps, GPrec p ps := by
      cases hg with
      | timestamp _ h _ => exact ⟨_, h⟩
      | time _ h _ => exact ⟨_, h⟩
    obtain ⟨ps, hp⟩ := hp
    simp only [CTy.conv] at h
    obtain ⟨us, h1, h2⟩ := bind_ok h
    refine mkType_readable h2 ?_
    intro k v hk
    rw [dget_append] at hk
    cases hd : dget k us with
    | none =>
      rw [hd] at hk
      simp only [Option.none_or, dget] at hk
      split at hk
      · cases hk; trivial
      · simp at hk
    | some w =>
      rw [hd] at hk
      simp only [Option.some_or, Option.some.injEq] at hk
      subst hk
      exact convOpt_readable p ps us hp h1 k w hd
  | .doublePrecision, _, t, _, h => by
    cases h
    exact ⟨.simple _, .simple _⟩
  | .legacyArray _, _, _, _, h => by cases h
  | .legacyMap _ _, _, _, _, h => by cases h
  | .arrayOf c n, _, t, hg, h => by
    have hc : ∃ us, GTy c us := by
      cases hg with
      | arrayOf h' _ => exact ⟨_, h'⟩
      | arrayOfSize h' _ _ _ _ => exact ⟨_, h'⟩
    obtain ⟨us, hc⟩ := hc
    cases n with
    | some n => cases h
    | none =>
      simp only [CTy.conv] at h
      obtain ⟨d, h1, h2⟩ := bind_ok h
      have hr := conv_readable c us d hc h1
      refine mkType_readable h2 ?_
      intro k v hk
      simp only [dget] at hk
      split at hk
      · cases hk; exact hr
      · simp at hk
  | .generic n ps, _, t, hg, h => by
    simp only [CTy.conv] at h
    obtain ⟨vs, h1, h2⟩ := bind_ok h
    obtain ⟨nm, h3, h4⟩ := bind_ok h2
    refine mkType_readable h4 ?_
    intro k v hk
    have hv : v ∈ vs := mem_zip_fst (dget_zipFields_mem hk)
    cases hg with
    | name _ => cases h1; simp at hv
    | generic _ _ hp _ => exact convParams_readable ps _ vs hp h1 v hv
/-- Every field of a row too, and there is at least one. -/
theorem convs_readable : ∀ (fs : List CField) (ts : List Tok) (us : List Ty), GFields fs ts →
    CField.convs fs = .ok us → us ≠ [] ∧ ∀ u ∈ us, Readable u ∧ Valid u
  | [], _, _, hg, _ => by cases hg
  | f :: fs, _, us, hg, h => by
    simp only [CField.convs] at h
    obtain ⟨d, h1, h2⟩ := bind_ok h
    obtain ⟨ds, h3, h4⟩ := bind_ok h2
    cases h4
    refine ⟨by simp, ?_⟩
    have hf : ∃ us, GField f us := by
      cases hg with
      | one h => exact ⟨_, h⟩
      | more h _ _ => exact ⟨_, h⟩
    obtain ⟨vs, hf⟩ := hf
    have hd := convField_readable f vs d hf h1
    intro u hu
    rcases List.mem_cons.1 hu with rfl | hu
    · exact hd
    · cases hg with
      | one _ => cases h3; simp at hu
      | more _ _ hg => exact (convs_readable fs _ ds hg h3).2 u hu
theorem convField_readable : ∀ (f : CField) (ts : List Tok) (t : Ty), GField f ts → f.conv = .ok t →
    Readable t ∧ Valid t
  | .mk (some _) _, _, _, _, h => by cases h
  | .mk none c, _, t, hg, h => by
    cases hg with
    | unnamed hg => exact conv_readable c _ t hg h
theorem convParam_readable : ∀ (p : CTParam) (ts : List Tok) (v : PVal), GParam p ts → p.conv = .ok v → PValR v
  | .int t, _, v, _, h => by cases h; exact Int.natCast_nonneg _
  | .ty c, _, v, hg, h => by
    cases hg with
    | ty hg =>
    simp only [CTParam.conv] at h
    obtain ⟨d, h1, h2⟩ := bind_ok h
    cases h2
    exact conv_readable c _ d hg h1
theorem convOpt_readable : ∀ (p : Option CTParam) (ts : List Tok) (us : List (Str × PVal)), GPrec p ts →
    CTParam.convOpt p = .ok us → ∀ k v, dget k us = some v → PValR v
  | none, _, us, _, h, k, v, hk => by cases h; simp [dget] at hk
  | some p, _, us, hg, h, k, v, hk => by
    cases hg with
    | some _ hg _ =>
    simp only [CTParam.convOpt] at h
    obtain ⟨w, h1, h2⟩ := bind_ok h
    cases h2
    simp only [dget] at hk
    split at hk
    · cases hk; exact convParam_readable p _ _ hg h1
    · simp at hk
theorem convParams_readable : ∀ (ps : List CTParam) (ts : List Tok) (vs : List PVal), GParams ps ts →
    CTParam.convs ps = .ok vs → ∀ v ∈ vs, PValR v
  | [], _, _, hg, _, _, _ => by cases hg
  | f :: fs, _, us, hg, h, u, hu => by
    simp only [CTParam.convs] at h
    obtain ⟨d, h1, h2⟩ := bind_ok h
    obtain ⟨ds, h3, h4⟩ := bind_ok h2
    cases h4
    have hf : ∃ us, GParam f us := by
      cases hg with
      | one h => exact ⟨_, h⟩
      | more h _ _ => exact ⟨_, h⟩
    obtain ⟨vs, hf⟩ := hf
    have hd := convParam_readable f vs d hf h1
    rcases List.mem_cons.1 hu with rfl | hu
    · exact hd
    · cases hg with
      | one _ => cases h3; simp at hu
      | more _ _ hg => exact convParams_readable fs _ ds hg h3 u hu
end

/-- Every type read from a text is readable and valid. -/
theorem typeFromSql_readable {s : Str} {t : Ty} (h : typeFromSql s = .ok t) : Readable t ∧ Valid t := by
  unfold typeFromSql at h
  split at h
  · next c hp =>
    obtain ⟨pre, hg, _⟩ := pType_sound hp
    exact conv_readable c pre t hg h
  · cases h

end Treeno
