import Verif.Spec.Identity
/-! # `Sql.equals` on objects -/
namespace Treeno

/-! ## Constants -/

def Dec.at (m : Int) (d : Dec) : Int := (if d.neg then -1 else 1) * d.coeff * 10 ^ (d.exp - m).toNat

theorem Dec.at_low {m m' : Int} {d : Dec} (h : m ≤ m') (h' : m' ≤ d.exp) : d.at m = d.at m' * 10 ^ (m' - m).toNat := by
  unfold Dec.at
  have : (d.exp - m).toNat = (d.exp - m').toNat + (m' - m).toNat := by omega
  rw [this, Int.pow_add, ← Int.mul_assoc]

theorem Dec.numEq_iff {a b : Dec} (m : Int) (ha : m ≤ a.exp) (hb : m ≤ b.exp) : a.numEq b = true ↔ a.at m = b.at m := by
  have e : a.numEq b = (a.at (min a.exp b.exp) == b.at (min a.exp b.exp)) := rfl
  have h : m ≤ min a.exp b.exp := by omega
  rw [e, Dec.at_low h (d := a) (by omega), Dec.at_low h (d := b) (by omega), beq_iff_eq]
  constructor
  · intro h; rw [h]
  · intro h
    exact Int.eq_of_mul_eq_mul_right (by exact Int.ne_of_gt (Int.pow_pos (by decide))) h

theorem Dec.numEq_refl (a : Dec) : a.numEq a = true := (Dec.numEq_iff a.exp (Int.le_refl _) (Int.le_refl _)).mpr rfl
theorem Dec.numEq_symm {a b : Dec} (h : a.numEq b = true) : b.numEq a = true := by
  have := (Dec.numEq_iff (min a.exp b.exp) (by omega) (by omega)).mp h
  exact (Dec.numEq_iff (min a.exp b.exp) (by omega) (by omega)).mpr this.symm
theorem Dec.numEq_trans {a b c : Dec} (h : a.numEq b = true) (h' : b.numEq c = true) : a.numEq c = true := by
  have h1 := (Dec.numEq_iff (min a.exp (min b.exp c.exp)) (by omega) (by omega)).mp h
  have h2 := (Dec.numEq_iff (min a.exp (min b.exp c.exp)) (by omega) (by omega)).mp h'
  exact (Dec.numEq_iff _ (by omega) (by omega)).mpr (h1.trans h2)

theorem Dec.ofInt_at (n : Int) : (Dec.ofInt n).at 0 = n := by
  unfold Dec.at Dec.ofInt
  by_cases h : n < 0 <;> simp [h] <;> omega
theorem Dec.ofInt_eq {a b : Int} : (Dec.ofInt a).numEq (Dec.ofInt b) = (a == b) := by
  rw [Bool.eq_iff_iff, Dec.numEq_iff 0 (Int.le_refl _) (Int.le_refl _), Dec.ofInt_at, Dec.ofInt_at, beq_iff_eq]

/-- The value of a number. -/
def Scalar.num : Scalar → Option Dec
  | .bool b => some (Dec.ofInt b.toInt)
  | .int n => some (Dec.ofInt n)
  | .dec d => some d
  | _ => none

theorem Scalar.pyEq_num {a b : Scalar} {x y : Dec} (ha : a.num = some x) (hb : b.num = some y) : a.pyEq b = x.numEq y := by
  cases a <;> cases b <;> simp only [Scalar.num, reduceCtorEq, Option.some.injEq] at ha hb <;> subst ha <;> subst hb <;>
    simp only [Scalar.pyEq, Dec.ofInt_eq]
  rename_i a b
  cases a <;> cases b <;> rfl
theorem Scalar.pyEq_left {a b : Scalar} (ha : a.num = none) : a.pyEq b = true ↔ a = b := by
  cases a <;> cases b <;> simp_all [Scalar.num, Scalar.pyEq]
theorem Scalar.pyEq_right {a b : Scalar} (hb : b.num = none) : a.pyEq b = true ↔ a = b := by
  cases a <;> cases b <;> simp_all [Scalar.num, Scalar.pyEq]

theorem Scalar.pyEq_refl (a : Scalar) : a.pyEq a = true := by
  cases h : a.num with
  | none => exact (pyEq_left h).mpr rfl
  | some x => rw [pyEq_num h h]; exact x.numEq_refl
theorem Scalar.pyEq_symm {a b : Scalar} (h : a.pyEq b = true) : b.pyEq a = true := by
  cases ha : a.num with
  | none => rw [(pyEq_left ha).mp h]; exact pyEq_refl b
  | some x =>
    cases hb : b.num with
    | none => rw [(pyEq_right hb).mp h]; exact pyEq_refl b
    | some y => rw [pyEq_num ha hb] at h; rw [pyEq_num hb ha]; exact Dec.numEq_symm h
theorem Scalar.pyEq_trans {a b c : Scalar} (h : a.pyEq b = true) (h' : b.pyEq c = true) : a.pyEq c = true := by
  cases hb : b.num with
  | none => rw [(pyEq_right hb).mp h]; exact h'
  | some y =>
    cases ha : a.num with
    | none => rw [(pyEq_left ha).mp h]; exact h'
    | some x =>
      cases hc : c.num with
      | none => rw [← (pyEq_right hc).mp h']; exact h
      | some z =>
        rw [pyEq_num ha hb] at h; rw [pyEq_num hb hc] at h'; rw [pyEq_num ha hc]
        exact Dec.numEq_trans h h'

theorem Scalar.blank_eq {a b : Scalar} (h : Spec.blank a = Spec.blank b) (he : a.pyEq b = true) : a = b := by
  cases a <;> cases b <;> simp only [Spec.blank, reduceCtorEq, Scalar.dec.injEq] at h <;>
    simp only [Scalar.pyEq, beq_iff_eq] at he <;> try (subst he; rfl)
  rename_i a b
  obtain ⟨an, ac, ae⟩ := a
  obtain ⟨bn, bc, be⟩ := b
  simp only [Dec.mk.injEq, true_and] at h
  obtain ⟨rfl, rfl⟩ := h
  have := (Dec.numEq_iff ae (Int.le_refl _) (Int.le_refl _)).mp he
  unfold Dec.at at this
  simp only [Int.sub_self, Int.toNat_zero, Int.pow_zero, Int.mul_one] at this
  have : (ac : Int) = bc := by
    cases an <;> simp at this <;> omega
  have : ac = bc := by omega
  rw [this]

/-! ## Dicts -/

def Obj.pyEqAt (v : Obj) : Option Obj → Bool
  | some v' => v.pyEq v'
  | Option.none => false

theorem dget_mem {α} {k : Str} {v : α} : ∀ {d : List (Str × α)}, dget k d = some v → (k, v) ∈ d
  | (k', v') :: r, h => by
    unfold dget at h
    split at h
    · rename_i hk
      have : k' = k := by simpa using hk
      simp only [Option.some.injEq] at h
      subst this; subst h
      exact List.mem_cons_self
    · exact List.mem_cons_of_mem _ (dget_mem h)
theorem dget_of_mem {α} {k : Str} {v : α} : ∀ {d : List (Str × α)}, (d.map Prod.fst).Nodup → (k, v) ∈ d → dget k d = some v
  | (k', v') :: r, hn, h => by
    simp only [List.map_cons, List.nodup_cons] at hn
    unfold dget
    rcases List.mem_cons.mp h with e | h
    · obtain ⟨rfl, rfl⟩ := Prod.mk.inj e
      simp
    · have : k' ≠ k := by
        rintro rfl
        exact hn.1 (List.mem_map_of_mem (f := Prod.fst) h)
      simp [this, dget_of_mem hn.2 h]

theorem pyEqDict_iff {d' : List (Str × Obj)} : ∀ {d : List (Str × Obj)}, Obj.pyEqDict d d' = true ↔
    ∀ p ∈ d, ∃ v', dget p.1 d' = some v' ∧ p.2.pyEq v' = true
  | [] => by simp [Obj.pyEqDict]
  | (k, v) :: r => by
    have e : Obj.pyEqDict ((k, v) :: r) d' = (Obj.pyEqAt v (dget k d') && Obj.pyEqDict r d') := rfl
    rw [e, Bool.and_eq_true, pyEqDict_iff, List.forall_mem_cons]
    refine and_congr ?_ Iff.rfl
    cases hd : dget k d' with
    | none =>
      have : Obj.pyEqAt v none = false := rfl
      simp [this]
    | some w =>
      have : Obj.pyEqAt v (some w) = v.pyEq w := rfl
      simp [this]

theorem Propers_mem {p : Str × Obj} : ∀ {d : List (Str × Obj)}, Obj.Propers d → p ∈ d → p.2.Proper
  | (_, _) :: _, h, hp => by
    rcases List.mem_cons.mp hp with rfl | hp
    · exact h.1
    · exact Propers_mem h.2 hp

/-- Equally many distinct keys, all of the one among the other: the same keys. -/
theorem keys_sub {l l' : List Str} (hn : l.Nodup) (hs : l ⊆ l') (hl : l.length = l'.length) : l' ⊆ l := by
  induction l generalizing l' with
  | nil => 
    have : l' = [] := List.length_eq_zero_iff.mp hl.symm
    subst this; exact List.Subset.refl _
  | cons a r ih =>
    simp only [List.nodup_cons] at hn
    have ha : a ∈ l' := hs List.mem_cons_self
    have hr : r ⊆ l'.erase a := fun x hx => (List.mem_erase_of_ne (by rintro rfl; exact hn.1 hx)).mpr (hs (List.mem_cons_of_mem _ hx))
    have hlen : r.length = (l'.erase a).length := by
      rw [List.length_erase_of_mem ha]
      simp only [List.length_cons] at hl
      omega
    intro x hx
    by_cases e : x = a
    · subst e; exact List.mem_cons_self
    · exact List.mem_cons_of_mem _ (ih hn.2 hr hlen ((List.mem_erase_of_ne e).mpr hx))

theorem asdicts_keys : ∀ d : List (Str × Obj), (Obj.asdicts d).map Prod.fst = d.map Prod.fst
  | [] => rfl
  | (k, v) :: r => by
    have : Obj.asdicts ((k, v) :: r) = (k, v.asdict) :: Obj.asdicts r := rfl
    rw [this, List.map_cons, asdicts_keys r]; rfl

mutual
theorem asdict_proper : ∀ x : Obj, x.Proper → x.asdict.Proper
  | .dict d, h => ⟨(asdicts_keys d).symm ▸ h.1, asdicts_proper d h.2⟩
  | .inst _ d, h => ⟨(asdicts_keys d).symm ▸ h.1, asdicts_proper d h.2⟩
  | .list l, h => asdictList_proper l h
  | .none, _ => trivial
  | .scalar _, _ => trivial
  | .enum _ _, _ => trivial
  | .rel _, _ => trivial
theorem asdictList_proper : ∀ l : List Obj, Obj.ProperList l → Obj.ProperList (Obj.asdictList l)
  | [], _ => trivial
  | x :: r, h => ⟨asdict_proper x h.1, asdictList_proper r h.2⟩
theorem asdicts_proper : ∀ d : List (Str × Obj), Obj.Propers d → Obj.Propers (Obj.asdicts d)
  | [], _ => trivial
  | (_, v) :: r, h => ⟨asdict_proper v h.1, asdicts_proper r h.2⟩
end

/-! ## `==` is an equivalence -/

mutual
theorem pyEq_refl : ∀ x : Obj, x.Proper → x.asdict.pyEq x.asdict = true
  | .dict d, h => by
    have e : (Obj.dict d).asdict.pyEq (Obj.dict d).asdict = ((Obj.asdicts d).length == (Obj.asdicts d).length && Obj.pyEqDict (Obj.asdicts d) (Obj.asdicts d)) := rfl
    rw [e, beq_self_eq_true, Bool.true_and]
    exact pyEqDict_refl d h.2 _ (fun p hp => dget_of_mem ((asdicts_keys d).symm ▸ h.1) hp)
  | .inst _ d, h => by
    have e : (Obj.dict d).asdict.pyEq (Obj.dict d).asdict = ((Obj.asdicts d).length == (Obj.asdicts d).length && Obj.pyEqDict (Obj.asdicts d) (Obj.asdicts d)) := rfl
    show (Obj.dict d).asdict.pyEq (Obj.dict d).asdict = true
    rw [e, beq_self_eq_true, Bool.true_and]
    exact pyEqDict_refl d h.2 _ (fun p hp => dget_of_mem ((asdicts_keys d).symm ▸ h.1) hp)
  | .list l, h => pyEqList_refl l h
  | .none, _ => rfl
  | .scalar s, _ => s.pyEq_refl
  | .enum c n, _ => by
    show (c == c && n == n) = true
    simp
  | .rel k, _ => by
    show (k == k) = true
    simp
theorem pyEqList_refl : ∀ l : List Obj, Obj.ProperList l → Obj.pyEqList (Obj.asdictList l) (Obj.asdictList l) = true
  | [], _ => rfl
  | x :: r, h => by
    have e : Obj.pyEqList (Obj.asdictList (x :: r)) (Obj.asdictList (x :: r)) = (x.asdict.pyEq x.asdict && Obj.pyEqList (Obj.asdictList r) (Obj.asdictList r)) := rfl
    rw [e, pyEq_refl x h.1, pyEqList_refl r h.2]; rfl
theorem pyEqDict_refl : ∀ d : List (Str × Obj), Obj.Propers d → ∀ d', (∀ p ∈ Obj.asdicts d, dget p.1 d' = some p.2) →
    Obj.pyEqDict (Obj.asdicts d) d' = true
  | [], _, _, _ => rfl
  | (k, v) :: r, h, d', hd => by
    have e : Obj.pyEqDict (Obj.asdicts ((k, v) :: r)) d' = (Obj.pyEqAt v.asdict (dget k d') && Obj.pyEqDict (Obj.asdicts r) d') := rfl
    rw [e, hd (k, v.asdict) List.mem_cons_self, pyEqDict_refl r h.2 d' (fun p hp => hd p (List.mem_cons_of_mem _ hp)), Bool.and_true]
    exact pyEq_refl v h.1
end

mutual
theorem pyEq_symm : ∀ x y : Obj, x.Proper → y.Proper → x.pyEq y = true → y.pyEq x = true
  | .dict d, y, hx, hy, h => by
    cases y with
    | dict d' =>
      have e : ∀ a b : List (Str × Obj), (Obj.dict a).pyEq (Obj.dict b) = (a.length == b.length && Obj.pyEqDict a b) := fun _ _ => rfl
      rw [e, Bool.and_eq_true, beq_iff_eq] at h
      rw [e, Bool.and_eq_true, beq_iff_eq]
      obtain ⟨hl, hd⟩ := h
      have hs := pyEqDict_symm d d' hx.2 hy.2 hd
      have hk : d'.map Prod.fst ⊆ d.map Prod.fst := by
        refine keys_sub hx.1 (fun k hk => ?_) (by simpa using hl)
        obtain ⟨p, hp, rfl⟩ := List.mem_map.mp hk
        obtain ⟨v', hv, _⟩ := hs p hp
        exact List.mem_map.mpr ⟨_, dget_mem hv, rfl⟩
      refine ⟨hl.symm, pyEqDict_iff.mpr fun p hp => ?_⟩
      obtain ⟨q, hq, hqk⟩ := List.mem_map.mp (hk (List.mem_map_of_mem (f := Prod.fst) hp))
      obtain ⟨v', hv, he⟩ := hs q hq
      rw [hqk, dget_of_mem hy.1 hp] at hv
      simp only [Option.some.injEq] at hv
      subst hv
      exact ⟨q.2, dget_of_mem hx.1 (by rw [← hqk]; exact hq), he⟩
    | _ => exact absurd h Bool.false_ne_true
  | .list l, y, hx, hy, h => by
    cases y with
    | list l' => exact pyEqList_symm l l' hx hy h
    | _ => exact absurd h Bool.false_ne_true
  | .inst _ _, y, _, _, h => by cases y <;> exact absurd h Bool.false_ne_true
  | .none, y, _, _, h => by
    cases y with
    | none => rfl
    | _ => exact absurd h Bool.false_ne_true
  | .scalar s, y, _, _, h => by
    cases y with
    | scalar t => exact Scalar.pyEq_symm h
    | _ => exact absurd h Bool.false_ne_true
  | .enum c n, y, _, _, h => by
    cases y with
    | enum c' n' =>
      have e : ∀ a b c d, (Obj.enum a b).pyEq (Obj.enum c d) = (a == c && b == d) := fun _ _ _ _ => rfl
      rw [e, Bool.and_eq_true, beq_iff_eq, beq_iff_eq] at h ⊢
      exact ⟨h.1.symm, h.2.symm⟩
    | _ => exact absurd h Bool.false_ne_true
  | .rel k, y, _, _, h => by
    cases y with
    | rel k' =>
      have e : ∀ a b, (Obj.rel a).pyEq (Obj.rel b) = (a == b) := fun _ _ => rfl
      rw [e, beq_iff_eq] at h ⊢
      exact h.symm
    | _ => exact absurd h Bool.false_ne_true
theorem pyEqList_symm : ∀ l l' : List Obj, Obj.ProperList l → Obj.ProperList l' → Obj.pyEqList l l' = true → Obj.pyEqList l' l = true
  | [], [], _, _, _ => rfl
  | [], _ :: _, _, _, h => absurd h Bool.false_ne_true
  | _ :: _, [], _, _, h => absurd h Bool.false_ne_true
  | x :: r, x' :: r', h, h', he => by
    have e : ∀ a b : Obj, ∀ c d, Obj.pyEqList (a :: c) (b :: d) = (a.pyEq b && Obj.pyEqList c d) := fun _ _ _ _ => rfl
    rw [e, Bool.and_eq_true] at he ⊢
    exact ⟨pyEq_symm x x' h.1 h'.1 he.1, pyEqList_symm r r' h.2 h'.2 he.2⟩
theorem pyEqDict_symm : ∀ d d' : List (Str × Obj), Obj.Propers d → Obj.Propers d' → Obj.pyEqDict d d' = true →
    ∀ p ∈ d, ∃ v', dget p.1 d' = some v' ∧ v'.pyEq p.2 = true
  | [], _, _, _, _ => nofun
  | (k, v) :: r, d', h, h', he => by
    have e : Obj.pyEqDict ((k, v) :: r) d' = (Obj.pyEqAt v (dget k d') && Obj.pyEqDict r d') := rfl
    rw [e, Bool.and_eq_true] at he
    intro p hp
    rcases List.mem_cons.mp hp with rfl | hp
    · cases hd : dget k d' with
      | none => rw [hd] at he; exact absurd he.1 Bool.false_ne_true
      | some w =>
        rw [hd] at he
        exact ⟨w, rfl, pyEq_symm v w h.1 (Propers_mem h' (dget_mem hd)) he.1⟩
    · exact pyEqDict_symm r d' h.2 h' he.2 p hp
end

mutual
theorem pyEq_trans : ∀ x y z : Obj, x.pyEq y = true → y.pyEq z = true → x.pyEq z = true
  | .dict d, y, z, h, h' => by
    cases y with
    | dict d' =>
      cases z with
      | dict d'' =>
        have e : ∀ a b : List (Str × Obj), (Obj.dict a).pyEq (Obj.dict b) = (a.length == b.length && Obj.pyEqDict a b) := fun _ _ => rfl
        rw [e, Bool.and_eq_true, beq_iff_eq] at h h' ⊢
        exact ⟨h.1.trans h'.1, pyEqDict_trans d d' d'' h.2 (pyEqDict_iff.mp h'.2)⟩
      | _ => exact absurd h' Bool.false_ne_true
    | _ => exact absurd h Bool.false_ne_true
  | .list l, y, z, h, h' => by
    cases y with
    | list l' =>
      cases z with
      | list l'' => exact pyEqList_trans l l' l'' h h'
      | _ => exact absurd h' Bool.false_ne_true
    | _ => exact absurd h Bool.false_ne_true
  | .inst _ _, y, _, h, _ => by cases y <;> exact absurd h Bool.false_ne_true
  | .none, y, z, h, h' => by
    cases y with
    | none => exact h'
    | _ => exact absurd h Bool.false_ne_true
  | .scalar s, y, z, h, h' => by
    cases y with
    | scalar t =>
      cases z with
      | scalar u => exact Scalar.pyEq_trans h h'
      | _ => exact absurd h' Bool.false_ne_true
    | _ => exact absurd h Bool.false_ne_true
  | .enum c n, y, z, h, h' => by
    cases y with
    | enum c' n' =>
      have e : ∀ a b c d, (Obj.enum a b).pyEq (Obj.enum c d) = (a == c && b == d) := fun _ _ _ _ => rfl
      rw [e, Bool.and_eq_true, beq_iff_eq, beq_iff_eq] at h
      rw [h.1, h.2]; exact h'
    | _ => exact absurd h Bool.false_ne_true
  | .rel k, y, z, h, h' => by
    cases y with
    | rel k' =>
      have e : ∀ a b, (Obj.rel a).pyEq (Obj.rel b) = (a == b) := fun _ _ => rfl
      rw [e, beq_iff_eq] at h
      rw [h]; exact h'
    | _ => exact absurd h Bool.false_ne_true
theorem pyEqList_trans : ∀ l l' l'' : List Obj, Obj.pyEqList l l' = true → Obj.pyEqList l' l'' = true → Obj.pyEqList l l'' = true
  | [], [], _, _, h => h
  | [], _ :: _, _, h, _ => absurd h Bool.false_ne_true
  | _ :: _, [], _, h, _ => absurd h Bool.false_ne_true
  | _ :: _, _ :: _, [], _, h => absurd h Bool.false_ne_true
  | x :: r, x' :: r', x'' :: r'', h, h' => by
    have e : ∀ a b : Obj, ∀ c d, Obj.pyEqList (a :: c) (b :: d) = (a.pyEq b && Obj.pyEqList c d) := fun _ _ _ _ => rfl
    rw [e, Bool.and_eq_true] at h h' ⊢
    exact ⟨pyEq_trans x x' x'' h.1 h'.1, pyEqList_trans r r' r'' h.2 h'.2⟩
theorem pyEqDict_trans : ∀ d d' d'' : List (Str × Obj), Obj.pyEqDict d d' = true →
    (∀ p ∈ d', ∃ v', dget p.1 d'' = some v' ∧ p.2.pyEq v' = true) → Obj.pyEqDict d d'' = true
  | [], _, _, _, _ => rfl
  | (k, v) :: r, d', d'', h, h' => by
    have e : ∀ d', Obj.pyEqDict ((k, v) :: r) d' = (Obj.pyEqAt v (dget k d') && Obj.pyEqDict r d') := fun _ => rfl
    rw [e, Bool.and_eq_true] at h ⊢
    refine ⟨?_, pyEqDict_trans r d' d'' h.2 h'⟩
    cases hd : dget k d' with
    | none => rw [hd] at h; exact absurd h.1 Bool.false_ne_true
    | some w =>
      rw [hd] at h
      obtain ⟨u, hu, hw⟩ := h' (k, w) (dget_mem hd)
      dsimp only at hu hw
      rw [hu]
      exact pyEq_trans v w u h.1 hw
end

/-! ## Objects of the same shape -/

mutual
theorem shape_eq : ∀ x y : Obj, x.shape = y.shape → y.Proper → x.asdict.pyEq y.asdict = true → x = y
  | .dict d, y, hs, hy, h => by
    cases y with
    | dict d' =>
      have e : ∀ a b, (Obj.dict a).asdict.pyEq (Obj.dict b).asdict = ((Obj.asdicts a).length == (Obj.asdicts b).length && Obj.pyEqDict (Obj.asdicts a) (Obj.asdicts b)) := fun _ _ => rfl
      rw [e, Bool.and_eq_true] at h
      rw [shapes_eq d d' (Obj.dict.inj hs) hy.2 (Obj.asdicts d') (fun p hp => dget_of_mem ((asdicts_keys d').symm ▸ hy.1) hp) h.2]
    | _ => exact nomatch hs
  | .inst c d, y, hs, hy, h => by
    cases y with
    | inst c' d' =>
      have e : ∀ a b c c', (Obj.inst c a).asdict.pyEq (Obj.inst c' b).asdict = ((Obj.asdicts a).length == (Obj.asdicts b).length && Obj.pyEqDict (Obj.asdicts a) (Obj.asdicts b)) := fun _ _ _ _ => rfl
      rw [e, Bool.and_eq_true] at h
      obtain ⟨rfl, hs'⟩ := Obj.inst.inj hs
      rw [shapes_eq d d' hs' hy.2 (Obj.asdicts d') (fun p hp => dget_of_mem ((asdicts_keys d').symm ▸ hy.1) hp) h.2]
    | _ => exact nomatch hs
  | .list l, y, hs, hy, h => by
    cases y with
    | list l' => rw [shapeList_eq l l' (Obj.list.inj hs) hy h]
    | _ => exact nomatch hs
  | .none, y, hs, _, _ => by
    cases y with
    | none => rfl
    | _ => exact nomatch hs
  | .scalar s, y, hs, _, h => by
    cases y with
    | scalar t => rw [Scalar.blank_eq (Obj.scalar.inj hs) h]
    | _ => exact nomatch hs
  | .enum c n, y, hs, _, h => by
    cases y with
    | enum c' n' =>
      have e : ∀ a b c d, (Obj.enum a b).asdict.pyEq (Obj.enum c d).asdict = (a == c && b == d) := fun _ _ _ _ => rfl
      rw [e, Bool.and_eq_true, beq_iff_eq, beq_iff_eq] at h
      rw [h.1, h.2]
    | _ => exact nomatch hs
  | .rel k, y, hs, _, h => by
    cases y with
    | rel k' =>
      have e : ∀ a b, (Obj.rel a).asdict.pyEq (Obj.rel b).asdict = (a == b) := fun _ _ => rfl
      rw [e, beq_iff_eq] at h
      rw [h]
    | _ => exact nomatch hs
theorem shapeList_eq : ∀ l l' : List Obj, Obj.shapeList l = Obj.shapeList l' → Obj.ProperList l' →
    Obj.pyEqList (Obj.asdictList l) (Obj.asdictList l') = true → l = l'
  | [], [], _, _, _ => rfl
  | [], _ :: _, h, _, _ => nomatch h
  | _ :: _, [], h, _, _ => nomatch h
  | x :: r, x' :: r', hs, hy, h => by
    have e : ∀ a b : Obj, ∀ c d, Obj.pyEqList (Obj.asdictList (a :: c)) (Obj.asdictList (b :: d)) = (a.asdict.pyEq b.asdict && Obj.pyEqList (Obj.asdictList c) (Obj.asdictList d)) := fun _ _ _ _ => rfl
    rw [e, Bool.and_eq_true] at h
    obtain ⟨h1, h2⟩ := List.cons.inj hs
    rw [shape_eq x x' h1 hy.1 h.1, shapeList_eq r r' h2 hy.2 h.2]
theorem shapes_eq : ∀ d d' : List (Str × Obj), Obj.shapes d = Obj.shapes d' → Obj.Propers d' → ∀ f,
    (∀ p ∈ Obj.asdicts d', dget p.1 f = some p.2) → Obj.pyEqDict (Obj.asdicts d) f = true → d = d'
  | [], [], _, _, _, _, _ => rfl
  | [], (_, _) :: _, h, _, _, _, _ => nomatch h
  | (_, _) :: _, [], h, _, _, _, _ => nomatch h
  | (k, v) :: r, (k', v') :: r', hs, hy, f, hf, h => by
    have e : Obj.pyEqDict (Obj.asdicts ((k, v) :: r)) f = (Obj.pyEqAt v.asdict (dget k f) && Obj.pyEqDict (Obj.asdicts r) f) := rfl
    rw [e, Bool.and_eq_true] at h
    obtain ⟨h1, h2⟩ := List.cons.inj hs
    obtain ⟨hk, hv⟩ := Prod.mk.inj h1
    subst hk
    rw [hf (k, v'.asdict) List.mem_cons_self] at h
    rw [shape_eq v v' hv hy.1 h.1, shapes_eq r r' h2 hy.2 f (fun p hp => hf p (List.mem_cons_of_mem _ hp)) h.2]
end

end Treeno
