import Verif.Lemmas.Unfold
import Verif.Props.ResolveProps
/-! Resolving assigns only to objects that are used, and only types and remembered columns. -/
set_option autoImplicit false
namespace Treeno
open Spec

theorem Act.bind_some {α β : Type} {x : Act α} {f : α → Act β} {h h' : Heap} {a : α} (e : x h = some (.ok a, h')) :
    (x >>= f) h = f a h' := by
  show Act.bind x f h = _
  unfold Act.bind
  rw [e]
theorem Act.bind_err {α β : Type} {x : Act α} {f : α → Act β} {h h' : Heap} {e : Err} (he : x h = some (.error e, h')) :
    (x >>= f) h = some (.error e, h') := by
  show Act.bind x f h = _
  unfold Act.bind
  rw [he]
theorem Act.bind_inv {α β : Type} {x : Act α} {f : α → Act β} {h h' : Heap} {o : Except Err β} (e : (x >>= f) h = some (o, h')) :
    (∃ er, x h = some (.error er, h') ∧ o = .error er) ∨ ∃ a h1, x h = some (.ok a, h1) ∧ f a h1 = some (o, h') := by
  have e' : Act.bind x f h = some (o, h') := e
  unfold Act.bind at e'
  split at e'
  · cases e'
  · next er h1 hx => cases e'; exact .inl ⟨_, hx, rfl⟩
  · next a h1 hx => exact .inr ⟨_, _, hx, e'⟩

theorem Heap.Alike.refl (h : Heap) : h.Alike h := fun _ => rfl
theorem Heap.Alike.trans {a b c : Heap} (h : a.Alike b) (h' : b.Alike c) : a.Alike c := fun r => (h' r).trans (h r)
theorem Heap.Alike.symm {a b : Heap} (h : a.Alike b) : b.Alike a := fun r => (h r).symm

theorem RelObj.forget_kids {o o' : RelObj} (h : o'.forget = o.forget) : o'.kids = o.kids := by
  have : ∀ x : RelObj, x.forget.kids = x.kids := by intro x; cases x <;> rfl
  rw [← this o', h, this]
theorem RelObj.forget_isQuery {o o' : RelObj} (h : o'.forget = o.forget) : o'.isQuery = o.isQuery := by
  have : ∀ x : RelObj, x.forget.isQuery = x.isQuery := by intro x; cases x <;> rfl
  rw [← this o', h, this]

theorem Heap.Alike.some {h h' : Heap} (A : h.Alike h') {r : Ref} {o : RelObj} (ho : h r = .some o) :
    ∃ o', h' r = .some o' ∧ o'.forget = o.forget := by
  have := A r
  rw [ho] at this
  cases e : h' r with
  | none => rw [e] at this; cases this
  | some o' => rw [e] at this; exact ⟨o', rfl, Option.some.inj this⟩

theorem UsesObj.alike {h h' : Heap} (A : h.Alike h') {a b : Ref} (u : UsesObj h a b) : UsesObj h' a b := by
  induction u with
  | here a => exact .here a
  | step ho hk _ ih =>
    obtain ⟨o', ho', hf⟩ := A.some ho
    exact .step ho' (by rw [RelObj.forget_kids hf]; exact hk) ih

/-- From `h` to `h'` only objects in `W` are changed, and only in types and remembered columns. -/
structure HStep (W : Ref → Prop) (h h' : Heap) : Prop where
  alike : h.Alike h'
  only : ∀ a, ¬ W a → h' a = h a

theorem HStep.refl (W : Ref → Prop) (h : Heap) : HStep W h h := ⟨.refl h, fun _ _ => rfl⟩
theorem HStep.trans {W : Ref → Prop} {a b c : Heap} (h : HStep W a b) (h' : HStep W b c) : HStep W a c :=
  ⟨h.alike.trans h'.alike, fun r hr => (h'.only r hr).trans (h.only r hr)⟩

/-- Whatever the computation answers, it makes such a step. -/
def Act.Safe {α : Type} (W : Ref → Prop) (h : Heap) (x : Act α) : Prop := ∀ o h', x h = some (o, h') → HStep W h h'

theorem Act.Safe.bind {α β : Type} {W : Ref → Prop} {h : Heap} {x : Act α} {f : α → Act β} (hx : x.Safe W h)
    (hf : ∀ a h', HStep W h h' → (f a).Safe W h') : (x >>= f).Safe W h := by
  intro o h' e
  rcases Act.bind_inv e with ⟨er, e1, _⟩ | ⟨a, h1, e1, e2⟩
  · exact hx _ _ e1
  · exact (hx _ _ e1).trans (hf a h1 (hx _ _ e1) _ _ e2)

theorem Act.Safe.pure {α : Type} {W : Ref → Prop} {h : Heap} {a : α} : (Pure.pure a : Act α).Safe W h := by
  intro o h' e
  cases e
  exact .refl W h
theorem Act.Safe.lift {α : Type} {W : Ref → Prop} {h : Heap} {x : Except Err α} : (Act.lift x).Safe W h := by
  intro o h' e
  cases e
  exact .refl W h
theorem Act.Safe.get {W : Ref → Prop} {h : Heap} {r : Ref} : (Act.get r).Safe W h := by
  intro o h' e
  cases e
  exact .refl W h
theorem Act.Safe.prune {W : Ref → Prop} {h : Heap} {r : Ref} {s : Schema} : (pruneAt r s).Safe W h :=
  .bind .get fun _ _ _ => .pure

theorem Act.get_inv {r : Ref} {h h' : Heap} {o : RelObj} (e : Act.get r h = Option.some (.ok o, h')) : h r = .some o ∧ h' = h := by
  unfold Act.get at e
  cases ho : h r with
  | none => rw [ho] at e; cases e
  | some o' => rw [ho] at e; cases e; exact ⟨rfl, rfl⟩

theorem Act.Safe.bindGet {β : Type} {W : Ref → Prop} {h : Heap} {r : Ref} {f : RelObj → Act β}
    (hf : ∀ o, h r = some o → (f o).Safe W h) : (Act.get r >>= f).Safe W h := by
  intro o h' e
  rcases Act.bind_inv e with ⟨er, e1, _⟩ | ⟨a, h1, e1, e2⟩
  · exact Act.Safe.get _ _ e1
  · obtain ⟨ho, rfl⟩ := Act.get_inv e1
    exact hf a ho _ _ e2

theorem Act.Safe.put {W : Ref → Prop} {h : Heap} {r : Ref} {o o' : RelObj} (hw : W r) (ho : h r = some o) (hf : o'.forget = o.forget) :
    (Act.put r o').Safe W h := by
  intro x h' e
  cases e
  refine ⟨fun a => ?_, fun a ha => ?_⟩
  · unfold Heap.put
    split
    · next e => subst e; rw [ho]; exact congrArg some hf
    · rfl
  · unfold Heap.put
    split
    · next e => subst e; exact absurd hw ha
    · rfl

theorem Act.Safe.bindLift {α β : Type} {W : Ref → Prop} {h : Heap} {x : Except Err α} {f : α → Act β}
    (hf : ∀ a, x = .ok a → (f a).Safe W h) : (Act.lift x >>= f).Safe W h := by
  intro o h' e
  rcases Act.bind_inv e with ⟨er, e1, _⟩ | ⟨a, h1, e1, e2⟩
  · exact Act.Safe.lift _ _ e1
  · cases e1
    exact hf a rfl _ _ e2

theorem keyAt_safe (W : Ref → Prop) : ∀ (n : Nat) (r : Ref) (h : Heap), (keyAt n r).Safe W h
  | 0, _, _ => fun _ _ e => by cases e
  | n + 1, r, h => by
    refine .bindGet fun o _ => ?_
    cases o with
    | aliased r a cols => exact .bind (keyAt_safe W n r h) fun _ _ _ => .pure
    | join a b t nat cr => exact .bind (keyAt_safe W n a h) fun _ h' _ => .bind (keyAt_safe W n b h') fun _ _ _ => .pure
    | sample r t p => exact .bind (keyAt_safe W n r h) fun _ _ _ => .pure
    | _ => exact .pure

theorem withLoop_safe {W : Ref → Prop} {go : Schema → Ref → Act Schema} {h0 : Heap} : ∀ (ws : List Ref) (s : Schema) (h : Heap),
    (∀ c ∈ ws, ∀ s h', h0.Alike h' → (go s c).Safe W h') → h0.Alike h → (withLoop go ws s).Safe W h
  | [], _, _, _, _ => .pure
  | w :: ws, s, h, G, A => by
    refine .bind (G w (List.mem_cons_self ..) s h A) fun t h1 S1 => .bindLift fun m _ => ?_
    exact withLoop_safe ws m h1 (fun c hc => G c (List.mem_cons_of_mem _ hc)) (A.trans S1.alike)

theorem RelObj.forget_setItems {o : RelObj} {items : List Expr} {dt : Ty}
    (h : mapExprs forgetNode forgetTable items = mapExprs forgetNode forgetTable o.items) :
    (o.setItems items dt).forget = o.forget := by
  cases o <;> first | rfl | (show RelObj.select .. = RelObj.select ..; rw [h]; rfl)
theorem RelObj.forget_setType (o : RelObj) (dt : Ty) : (o.setType dt).forget = o.forget := by
  cases o <;> rfl

theorem resolveObj_safe {W : Ref → Prop} {go : Schema → Ref → Act Schema} {h : Heap} (n : Nat) (s : Schema) (r : Ref) (o : RelObj)
    (hw : W r) (ho : h r = some o) (G : ∀ c ∈ o.kids, ∀ s h', h.Alike h' → (go s c).Safe W h') :
    (resolveObj n go s r o).Safe W h := by
  cases o with
  | table t =>
    refine .bind (.put hw ho ?_) fun _ _ _ => .pure
    show RelObj.table _ = RelObj.table _
    rw [Props.tableResolve_forget]
  | select items f wh gb hv d wins off lim ob w dt =>
    cases f with
    | none => exact .bindLift fun _ _ => .pure
    | some f =>
      refine .bind (withLoop_safe w _ h (fun c hc => G c (List.mem_append_left _ hc)) (.refl h)) fun ws h1 S1 => ?_
      refine .bindLift fun ex _ => .bind .prune fun ex' h2 S2 => ?_
      refine .bind (G f (List.mem_append_right _ (by simp)) _ h2 (S1.trans S2).alike) fun sch h3 S3 => ?_
      refine .bindGet fun o' ho' => .bindLift fun items' hi => .bindLift fun ts _ => ?_
      exact .bind (.put hw ho' (RelObj.forget_setItems (Props.C50_expressions _ _ _ hi))) fun _ _ _ => .bindLift fun _ _ => .pure
  | set k a b d off lim ob w dt =>
    refine .bind .prune fun s1 h1 S1 => .bind (G a (by simp [RelObj.kids]) _ h1 S1.alike) fun l h2 S2 => ?_
    refine .bind .prune fun s2 h3 S3 => ?_
    exact .bind (G b (by simp [RelObj.kids]) _ h3 ((S1.trans S2).trans S3).alike) fun _ _ _ => .pure
  | tableQ t off lim ob w dt =>
    refine .bind (withLoop_safe w _ h (fun c hc => G c (List.mem_append_left _ hc)) (.refl h)) fun ws h1 S1 => ?_
    refine .bind (G t (List.mem_append_right _ (by simp)) _ h1 S1.alike) fun sch h2 S2 => .bindGet fun o' ho' => ?_
    exact .bind (.put hw ho' (RelObj.forget_setType ..)) fun _ _ _ => .pure
  | values es off lim ob w dt => exact .lift
  | aliased f a cols =>
    refine .bind .prune fun s1 h1 S1 => .bind (G f (by simp [RelObj.kids]) _ h1 S1.alike) fun l h2 S2 => ?_
    exact .bind (keyAt_safe W n f h2) fun k h3 S3 => .bindLift fun _ _ => .pure
  | join a b t nat cr =>
    refine .bind .prune fun s1 h1 S1 => .bind (G a (by simp [RelObj.kids]) _ h1 S1.alike) fun l h2 S2 => .bindLift fun ex _ => ?_
    refine .bind .prune fun s2 h3 S3 => ?_
    exact .bind (G b (by simp [RelObj.kids]) _ h3 ((S1.trans S2).trans S3).alike) fun _ _ _ => .lift
  | unnest as o dt =>
    refine .bindLift fun as' ha => .bindLift fun ts _ => .bind (.put hw ho ?_) fun _ _ _ => .pure
    show RelObj.unnest .. = RelObj.unnest ..
    rw [Props.C50_expressions _ _ _ ha]
  | lateral q => exact G q (by simp [RelObj.kids]) _ h (.refl h)
  | sample f t p => exact G f (by simp [RelObj.kids]) _ h (.refl h)

theorem resolveAt_safe : ∀ (n : Nat) (s : Schema) (r : Ref) {W : Ref → Prop} {h : Heap}, (∀ a, UsesObj h r a → W a) →
    (resolveAt n s r).Safe W h
  | 0, _, _, _, _, _ => fun _ _ e => by cases e
  | n + 1, s, r, W, h, hW => by
    refine .bindGet fun o ho => resolveObj_safe n s r o (hW r (.here r)) ho fun c hc s' h' A => ?_
    exact resolveAt_safe n s' c fun a u => hW a (.step ho hc (u.alike A.symm))

end Treeno
