import Verif.Lemmas.HeapRefine
/-! The answer does not depend on the bound on the depth, nor on objects that are not used. -/
set_option autoImplicit false
namespace Treeno
open Spec

/-- Whatever `x` answers `y` answers. -/
def Act.Le {α : Type} (x y : Act α) : Prop := ∀ h out, x h = some out → y h = some out

theorem Act.Le.refl {α : Type} (x : Act α) : x.Le x := fun _ _ e => e
theorem Act.Le.bind {α β : Type} {x y : Act α} {f g : α → Act β} (hx : x.Le y) (hf : ∀ a, (f a).Le (g a)) : (x >>= f).Le (y >>= g) := by
  rintro h ⟨o, h'⟩ e
  rcases Act.bind_inv e with ⟨er, e1, rfl⟩ | ⟨a, h1, e1, e2⟩
  · exact Act.bind_err (hx _ _ e1)
  · exact (Act.bind_some (hx _ _ e1)).trans (hf a _ _ e2)

theorem withLoop_le {g k : Schema → Ref → Act Schema} (H : ∀ s r, (g s r).Le (k s r)) : ∀ (ws : List Ref) (s : Schema),
    (withLoop g ws s).Le (withLoop k ws s)
  | [], _ => .refl _
  | w :: ws, s => .bind (H s w) fun _ => .bind (.refl _) fun m => withLoop_le H ws m

theorem keyAt_le : ∀ {n m : Nat} (r : Ref), n ≤ m → (keyAt n r).Le (keyAt m r)
  | 0, _, _, _ => fun _ _ e => by cases e
  | n + 1, m + 1, r, l => by
    have l : n ≤ m := by omega
    refine .bind (.refl _) fun o => ?_
    cases o with
    | aliased r a cols => exact .bind (keyAt_le r l) fun _ => .refl _
    | join a b t nat cr => exact .bind (keyAt_le a l) fun _ => .bind (keyAt_le b l) fun _ => .refl _
    | sample r t p => exact .bind (keyAt_le r l) fun _ => .refl _
    | _ => exact .refl _

theorem resolveObj_le {g k : Schema → Ref → Act Schema} (H : ∀ s r, (g s r).Le (k s r)) {n m : Nat} (l : n ≤ m) (s : Schema) (r : Ref) (o : RelObj) :
    (resolveObj n g s r o).Le (resolveObj m k s r o) := by
  cases o with
  | select items f wh gb hv d wins off lim ob w dt =>
    cases f with
    | none => exact .refl _
    | some f => exact .bind (withLoop_le H w _) fun _ => .bind (.refl _) fun _ => .bind (.refl _) fun _ => .bind (H _ _) fun _ => .refl _
  | set k' a b d off lim ob w dt => exact .bind (.refl _) fun _ => .bind (H _ _) fun _ => .bind (.refl _) fun _ => .bind (H _ _) fun _ => .refl _
  | tableQ t off lim ob w dt => exact .bind (withLoop_le H w _) fun _ => .bind (H _ _) fun _ => .refl _
  | aliased f a cols => exact .bind (.refl _) fun _ => .bind (H _ _) fun _ => .bind (keyAt_le f l) fun _ => .refl _
  | join a b t nat cr =>
    exact .bind (.refl _) fun _ => .bind (H _ _) fun _ => .bind (.refl _) fun _ => .bind (.refl _) fun _ => .bind (H _ _) fun _ => .refl _
  | lateral q => exact H _ _
  | sample f t p => exact H _ _
  | _ => exact .refl _

theorem resolveAt_le : ∀ {n m : Nat} (s : Schema) (r : Ref), n ≤ m → (resolveAt n s r).Le (resolveAt m s r)
  | 0, _, _, _, _ => fun _ _ e => by cases e
  | n + 1, m + 1, s, r, l =>
    .bind (.refl _) fun o => resolveObj_le (fun s r => resolveAt_le s r (by omega)) (by omega) s r o

/-- The heaps agree on `W`, and `W` contains what its objects refer to. -/
structure Share (W : Ref → Prop) (h k : Heap) : Prop where
  same : ∀ a, W a → k a = h a
  closed : ∀ a o, W a → h a = some o → ∀ c ∈ o.kids, W c

/-- On heaps that agree on `W` the computation gives the same answer and leaves heaps that agree on `W`. -/
def Act.Local {α : Type} (W : Ref → Prop) (x : Act α) : Prop := ∀ h k o h', Share W h k → x h = some (o, h') →
  ∃ k', x k = some (o, k') ∧ Share W h' k'

theorem Act.Local.bind {α β : Type} {W : Ref → Prop} {x : Act α} {f : α → Act β} (hx : x.Local W) (hf : ∀ a, (f a).Local W) :
    (x >>= f).Local W := by
  intro h k o h' S e
  rcases Act.bind_inv e with ⟨er, e1, rfl⟩ | ⟨a, h1, e1, e2⟩
  · obtain ⟨k', e3, S'⟩ := hx _ _ _ _ S e1
    exact ⟨k', Act.bind_err e3, S'⟩
  · obtain ⟨k1, e3, S1⟩ := hx _ _ _ _ S e1
    obtain ⟨k', e4, S'⟩ := hf a _ _ _ _ S1 e2
    exact ⟨k', (Act.bind_some e3).trans e4, S'⟩
theorem Act.Local.pure {α : Type} {W : Ref → Prop} {a : α} : (Pure.pure a : Act α).Local W := by
  intro h k o h' S e
  cases e
  exact ⟨k, rfl, S⟩
theorem Act.Local.lift {α : Type} {W : Ref → Prop} {x : Except Err α} : (Act.lift x).Local W := by
  intro h k o h' S e
  cases e
  exact ⟨k, rfl, S⟩
theorem Act.Local.get {β : Type} {W : Ref → Prop} {r : Ref} (hw : W r) {f : RelObj → Act β} (hf : ∀ o, (∀ c ∈ o.kids, W c) → (f o).Local W) :
    (Act.get r >>= f).Local W := by
  intro h k o h' S e
  rcases Act.bind_inv e with ⟨er, e1, rfl⟩ | ⟨a, h1, e1, e2⟩
  · have : Act.get r k = some (.error er, k) := by
      unfold Act.get at e1 ⊢
      rw [S.same r hw]
      cases ho : h r with
      | none => rw [ho] at e1; cases e1; rfl
      | some o => rw [ho] at e1; cases e1
    refine ⟨k, Act.bind_err this, ?_⟩
    cases (congrArg (fun x => x.map (·.2)) e1 : some _ = some _)
    exact S
  · obtain ⟨ho, rfl⟩ := Act.get_inv e1
    obtain ⟨k', e3, S'⟩ := hf a (S.closed r a hw ho) _ _ _ _ S e2
    exact ⟨k', (Act.bind_some (Act.get_ok ((S.same r hw).trans ho))).trans e3, S'⟩
theorem Act.Local.put {W : Ref → Prop} {r : Ref} {o : RelObj} (hk : ∀ c ∈ o.kids, W c) : (Act.put r o).Local W := by
  intro h k x h' S e
  cases e
  refine ⟨k.put r o, rfl, ⟨fun a ha => ?_, fun a o' ha ho' => ?_⟩⟩
  · unfold Heap.put
    split
    · rfl
    · exact S.same a ha
  · unfold Heap.put at ho'
    split at ho'
    · cases ho'; exact hk
    · exact S.closed a o' ha ho'
theorem Act.Local.prune {W : Ref → Prop} {r : Ref} {s : Schema} (hw : W r) : (pruneAt r s).Local W := .get hw fun _ _ => .pure

theorem keyAt_local {W : Ref → Prop} : ∀ (n : Nat) (r : Ref), W r → (keyAt n r).Local W
  | 0, _, _ => fun _ _ _ _ _ e => by cases e
  | n + 1, r, hw => by
    refine .get hw fun o hk => ?_
    cases o with
    | aliased r a cols => exact .bind (keyAt_local n r (hk r (by simp [RelObj.kids]))) fun _ => .pure
    | join a b t nat cr =>
      exact .bind (keyAt_local n a (hk a (by simp [RelObj.kids]))) fun _ => .bind (keyAt_local n b (hk b (by simp [RelObj.kids]))) fun _ => .pure
    | sample r t p => exact .bind (keyAt_local n r (hk r (by simp [RelObj.kids]))) fun _ => .pure
    | _ => exact .pure

theorem withLoop_local {W : Ref → Prop} {go : Schema → Ref → Act Schema} : ∀ (ws : List Ref) (s : Schema),
    (∀ c ∈ ws, ∀ s, (go s c).Local W) → (withLoop go ws s).Local W
  | [], _, _ => .pure
  | w :: ws, s, G => .bind (G w (List.mem_cons_self ..) s) fun _ => .bind .lift fun m =>
    withLoop_local ws m fun c hc => G c (List.mem_cons_of_mem _ hc)

theorem RelObj.kids_setItems (o : RelObj) (is : List Expr) (dt : Ty) : (o.setItems is dt).kids = o.kids := by cases o <;> rfl
theorem RelObj.kids_setType (o : RelObj) (dt : Ty) : (o.setType dt).kids = o.kids := by cases o <;> rfl

theorem resolveObj_local {W : Ref → Prop} {go : Schema → Ref → Act Schema} (n : Nat) (s : Schema) (r : Ref) (o : RelObj) (hw : W r)
    (hk : ∀ c ∈ o.kids, W c) (G : ∀ c, W c → ∀ s, (go s c).Local W) : (resolveObj n go s r o).Local W := by
  cases o with
  | table t => exact .bind (.put hk) fun _ => .pure
  | select items f wh gb hv d wins off lim ob w dt =>
    cases f with
    | none => exact .bind .lift fun _ => .pure
    | some f =>
      have hf : W f := hk f (List.mem_append_right _ (by simp))
      exact .bind (withLoop_local w _ fun c hc => G c (hk c (List.mem_append_left _ hc))) fun _ => .bind .lift fun _ => .bind (.prune hf) fun _ =>
        .bind (G f hf _) fun _ => .get hw fun o ho => .bind .lift fun _ => .bind .lift fun _ =>
        .bind (.put (by rw [RelObj.kids_setItems]; exact ho)) fun _ => .bind .lift fun _ => .pure
  | set k a b d off lim ob w dt =>
    have ha : W a := hk a (by simp [RelObj.kids])
    have hb : W b := hk b (by simp [RelObj.kids])
    exact .bind (.prune ha) fun _ => .bind (G a ha _) fun _ => .bind (.prune hb) fun _ => .bind (G b hb _) fun _ => .pure
  | tableQ t off lim ob w dt =>
    exact .bind (withLoop_local w _ fun c hc => G c (hk c (List.mem_append_left _ hc))) fun _ =>
      .bind (G t (hk t (List.mem_append_right _ (by simp))) _) fun _ => .get hw fun o ho =>
      .bind (.put (by rw [RelObj.kids_setType]; exact ho)) fun _ => .pure
  | values es off lim ob w dt => exact .lift
  | aliased f a cols =>
    have hf : W f := hk f (by simp [RelObj.kids])
    exact .bind (.prune hf) fun _ => .bind (G f hf _) fun _ => .bind (keyAt_local n f hf) fun _ => .bind .lift fun _ => .pure
  | join a b t nat cr =>
    have ha : W a := hk a (by simp [RelObj.kids])
    have hb : W b := hk b (by simp [RelObj.kids])
    exact .bind (.prune ha) fun _ => .bind (G a ha _) fun _ => .bind .lift fun _ => .bind (.prune hb) fun _ => .bind (G b hb _) fun _ => .lift
  | unnest as o dt => exact .bind .lift fun _ => .bind .lift fun _ => .bind (.put hk) fun _ => .pure
  | lateral q => exact G q (hk q (by simp [RelObj.kids])) _
  | sample f t p => exact G f (hk f (by simp [RelObj.kids])) _

theorem resolveAt_local {W : Ref → Prop} : ∀ (n : Nat) (s : Schema) (r : Ref), W r → (resolveAt n s r).Local W
  | 0, _, _, _ => fun _ _ _ _ _ e => by cases e
  | n + 1, s, r, hw => .get hw fun o hk => resolveObj_local n s r o hw hk fun c hc s' => resolveAt_local n s' c hc

theorem UsesObj.kid {h : Heap} {a b c : Ref} {o : RelObj} (u : UsesObj h a b) (ho : h b = some o) (hc : c ∈ o.kids) : UsesObj h a c := by
  induction u with
  | here a => exact .step ho hc (.here c)
  | step h1 h2 _ ih => exact .step h1 h2 (ih ho)

end Treeno
