import Verif.Lemmas.HeapTree
/-! Where nothing is shared, resolving in place does what resolving the tree does. -/
set_option autoImplicit false
namespace Treeno
open Spec

/-- The answer of a computation on the heap is that of the computation on trees, exceptions included; after a value, the heap
is as `good` says. -/
def Does {α : Type} (out : Option (Except Err Schema × Heap)) (res : Except Err (α × Schema)) (good : α → Heap → Prop) : Prop :=
  match res with
  | .ok p => ∃ h', out = some (.ok p.2, h') ∧ good p.1 h'
  | .error e => ∃ h', out = some (.error e, h')

theorem Does.step {α β : Type} {x : Act Schema} {f : Schema → Act Schema} {res : Except Err (α × Schema)}
    {g : α × Schema → Except Err (β × Schema)} {good : α → Heap → Prop} {good' : β → Heap → Prop} {h : Heap} (D : Does (x h) res good)
    (K : ∀ p h', res = .ok p → x h = some (.ok p.2, h') → good p.1 h' → Does (f p.2 h') (g p) good') :
    Does ((x >>= f) h) (res >>= g) good' := by
  cases res with
  | error e =>
    obtain ⟨h', e1⟩ := D
    exact ⟨h', Act.bind_err e1⟩
  | ok p =>
    obtain ⟨h', e1, hg⟩ := D
    rw [Act.bind_some e1]
    exact K p h' rfl e1 hg

theorem Does.lift {β γ : Type} {y : Except Err γ} {f : γ → Act Schema} {g : γ → Except Err (β × Schema)} {good : β → Heap → Prop}
    {h : Heap} (K : ∀ c, y = .ok c → Does (f c h) (g c) good) : Does ((Act.lift y >>= f) h) (y >>= g) good := by
  cases y with
  | error e => exact ⟨h, Act.bind_err rfl⟩
  | ok c =>
    rw [Act.bind_some (x := Act.lift (.ok c)) (h' := h) rfl]
    exact K c rfl

theorem Does.skip {β γ : Type} {x : Act γ} {f : γ → Act Schema} {res : Except Err (β × Schema)} {good : β → Heap → Prop}
    {h h' : Heap} {c : γ} (e : x h = some (.ok c, h')) (D : Does (f c h') res good) : Does ((x >>= f) h) res good := by
  rw [Act.bind_some e]
  exact D

theorem Does.pure {β : Type} {p : β × Schema} {good : β → Heap → Prop} {h : Heap} (hg : good p.1 h) :
    Does ((Pure.pure p.2 : Act Schema) h) (.ok p) good := ⟨h, rfl, hg⟩

theorem Does.map {α β : Type} {out : Option (Except Err Schema × Heap)} {res : Except Err (α × Schema)} {good : α → Heap → Prop}
    {good' : β → Heap → Prop} {g : α × Schema → Except Err (β × Schema)} (D : Does out res good) {k : α → β}
    (hg : ∀ p, g p = .ok (k p.1, p.2)) (K : ∀ a h', good a h' → good' (k a) h') : Does out (res >>= g) good' := by
  cases res with
  | error e => exact D
  | ok p =>
    obtain ⟨h', e1, hp⟩ := D
    show Does _ (g p) _
    rw [hg]
    exact ⟨h', e1, K _ _ hp⟩

theorem Act.get_ok {h : Heap} {r : Ref} {o : RelObj} (ho : h r = some o) : Act.get r h = some (.ok o, h) := by
  unfold Act.get
  rw [ho]
theorem prune_at {h : Heap} {r : Ref} {R : Rel} {fp : List Ref} (H : R.At h r fp) (s : Schema) :
    pruneAt r s h = some (.ok (prune R s), h) := by
  obtain ⟨o, ho, hq⟩ := H.obj
  show (Act.get r >>= _) h = _
  rw [Act.bind_some (Act.get_ok ho), hq]
  rfl
theorem prune_at_query {h : Heap} {r : Ref} {q : Query} {fp : List Ref} (H : q.At h r fp) (s : Schema) :
    pruneAt r s h = some (.ok .empty, h) := prune_at (R := .query q) H s

/-- Only objects of `fp` differ. -/
def Frame (fp : List Ref) (h h' : Heap) : Prop := ∀ a, a ∉ fp → h' a = h a
theorem Frame.agree {f g : List Ref} {h h' : Heap} (F : Frame f h h') (d : ∀ a ∈ g, a ∉ f) : AgreeOn g h h' := fun a ha => congrArg _ (F a (d a ha))
theorem Frame.trans {f g k : List Ref} {h h' h'' : Heap} (F : Frame f h h') (G : Frame g h' h'') (hf : ∀ a ∈ f, a ∈ k)
    (hg : ∀ a ∈ g, a ∈ k) : Frame k h h'' :=
  fun a ha => (G a fun m => ha (hg a m)).trans (F a fun m => ha (hf a m))
theorem Frame.mono {f k : List Ref} {h h' : Heap} (F : Frame f h h') (hf : ∀ a ∈ f, a ∈ k) : Frame k h h' :=
  fun a ha => F a fun m => ha (hf a m)
theorem Frame.put {h : Heap} {r : Ref} {o : RelObj} : Frame [r] h (h.put r o) := fun a ha => by
  unfold Heap.put
  rw [if_neg]
  intro e
  exact ha (by simp [e])
theorem put_same {h : Heap} {r : Ref} {o : RelObj} : h.put r o r = some o := by simp [Heap.put]

theorem nodup_parts {r : Ref} {f g : List Ref} (h : (r :: (f ++ g)).Nodup) :
    r ∉ f ∧ r ∉ g ∧ f.Nodup ∧ g.Nodup ∧ (∀ a ∈ f, a ∉ g) ∧ ∀ a ∈ g, a ∉ f := by
  rw [List.nodup_cons, List.nodup_append, List.mem_append] at h
  obtain ⟨h1, h2, h3, h4⟩ := h
  exact ⟨fun m => h1 (.inl m), fun m => h1 (.inr m), h2, h3, fun a ha hb => h4 a ha a hb rfl, fun a ha hb => h4 a hb a ha rfl⟩

theorem Act.same {α : Type} {W : Ref → Prop} {h h' : Heap} {x : Act α} {o : Except Err α} (S : x.Safe W h) (e : x h = some (o, h')) :
    h.Alike h' := (S _ _ e).alike
theorem resolveAt_alike {n : Nat} {s : Schema} {r : Ref} {h h' : Heap} {o : Except Err Schema} (e : resolveAt n s r h = some (o, h')) :
    h.Alike h' := Act.same (resolveAt_safe n s r (W := fun _ => True) fun _ _ => trivial) e
theorem withLoop_alike {n : Nat} {s : Schema} {ws : List Ref} {h h' : Heap} {o : Except Err Schema}
    (e : withLoop (resolveAt n) ws s h = some (o, h')) : h.Alike h' :=
  Act.same (withLoop_safe (W := fun _ => True) ws s h (fun c _ s' _ _ => resolveAt_safe n s' c fun _ _ => trivial) (.refl h)) e

/-- The kids of the object at `r`. -/
theorem Deep.kids {h : Heap} {n : Nat} {r : Ref} {o : RelObj} (D : Deep h (n + 1) r) (ho : h r = some o) : Deeps h n o.kids := by
  obtain ⟨o', ho', H⟩ := D
  rw [ho] at ho'
  cases ho'
  exact H

theorem Deep.pos {h : Heap} {n : Nat} {r : Ref} (D : Deep h n r) : ∃ m, n = m + 1 := by
  cases n with
  | zero => exact D.elim
  | succ m => exact ⟨m, rfl⟩

mutual
theorem Rel.At.key_at : ∀ (R : Rel) {n : Nat} {h : Heap} {r : Ref} {fp : List Ref}, R.At h r fp → Deep h n r →
    keyAt n r h = some (.ok R.key, h)
  | R, 0, _, _, _, _, D => D.elim
  | .table t, n + 1, h, r, fp, H, D => Act.bind_some (Act.get_ok H.1)
  | .query q, n + 1, h, r, fp, H, D => by
    obtain ⟨o, ho, hq⟩ := Query.At.obj H
    refine (Act.bind_some (Act.get_ok ho)).trans ?_
    cases o <;> first | rfl | cases hq
  | .aliased m, n + 1, h, r, fp, H, D => Named.At.key_at m H D
  | .join l r' t nat cr, n + 1, h, r, fp, H, D => by
    obtain ⟨a, b, fa, fb, ho, hl, hr, rfl⟩ := H
    have K := D.kids ho
    refine (Act.bind_some (Act.get_ok ho)).trans ?_
    refine (Act.bind_some (Rel.At.key_at l hl (K a (by simp [RelObj.kids])))).trans ?_
    exact Act.bind_some (Rel.At.key_at r' hr (K b (by simp [RelObj.kids])))
  | .unnest as o, n + 1, h, r, fp, H, D => by
    obtain ⟨dt, ho, rfl⟩ := H
    exact Act.bind_some (Act.get_ok ho)
  | .lateral q, n + 1, h, r, fp, H, D => by
    obtain ⟨a, fa, ho, hq, rfl⟩ := H
    exact Act.bind_some (Act.get_ok ho)
  | .sample rel t p, n + 1, h, r, fp, H, D => by
    obtain ⟨a, fa, ho, hq, rfl⟩ := H
    have K := D.kids ho
    refine (Act.bind_some (Act.get_ok ho)).trans ?_
    exact Act.bind_some (Rel.At.key_at rel hq (K a (by simp [RelObj.kids])))
theorem Named.At.key_at : ∀ (m : Named) {n : Nat} {h : Heap} {r : Ref} {fp : List Ref}, m.At h r fp → Deep h n r →
    keyAt n r h = some (.ok m.key, h)
  | m, 0, _, _, _, _, D => D.elim
  | .mk rel a cols, n + 1, h, r, fp, H, D => by
    obtain ⟨f, fa, ho, hr, rfl⟩ := H
    have K := D.kids ho
    refine (Act.bind_some (Act.get_ok ho)).trans ?_
    exact Act.bind_some (Rel.At.key_at rel hr (K f (by simp [RelObj.kids])))
end

theorem checks_resolved (s : Schema) : ∀ (es es' : List Expr), resolveFieldsL s es = .ok es' → ∃ ts, Expr.checks es' = .ok ts
  | [], es', h => by cases h; exact ⟨[], rfl⟩
  | e :: es, es', h => by
    obtain ⟨x, hx, h⟩ := bind_ok h
    obtain ⟨y, hy, h⟩ := bind_ok h
    cases h
    obtain ⟨ts, hts⟩ := checks_resolved s es y hy
    obtain ⟨z, hz, hx⟩ := bind_ok hx
    obtain ⟨t, ht, hx⟩ := bind_ok hx
    cases hx
    refine ⟨t :: ts, ?_⟩
    show (Expr.check x >>= _) = _
    rw [ht]
    show (Expr.checks y >>= _) = _
    rw [hts]
    rfl
/-- SELECT with FROM, in the order of the assignments. -/
theorem query_resolve_from (s : Schema) (items : List Expr) (fr : Rel) (wh gb hv d wins off lim ob) (w : List Named) :
    Query.resolve s (.mk (.select items (some fr) wh gb hv d wins) off lim ob w) =
      (Named.resolveW .empty w >>= fun pw => s.merge pw.2 >>= fun ex => fr.resolve (prune fr ex) >>= fun p =>
        resolveFieldsL p.2 items >>= fun is => selectCols is >>= fun cs =>
        .ok (.mk (.select is (some p.1) wh gb hv d wins) off lim ob pw.1, ⟨cs, []⟩)) := by
  rw [Query_resolve_mk]
  show (Named.resolveW .empty w >>= _) = _
  cases Named.resolveW .empty w with
  | error e => rfl
  | ok pw =>
    show ((QBody.resolve s pw.2 _) >>= _) = (s.merge pw.2 >>= _)
    rw [QBody_resolve_select, Rel_resolveFrom_some]
    cases s.merge pw.2 with
    | error e => rfl
    | ok ex =>
      show (((fr.resolve (prune fr ex) >>= _) >>= _) >>= _) = (fr.resolve (prune fr ex) >>= _)
      cases fr.resolve (prune fr ex) with
      | error e => rfl
      | ok p =>
        show (((selectOut p.2 items >>= _) >>= _) >>= _) = (resolveFieldsL p.2 items >>= _)
        unfold selectOut
        cases resolveFieldsL p.2 items with
        | error e => rfl
        | ok is =>
          show ((((selectCols is >>= _) >>= _) >>= _) >>= _) = (selectCols is >>= _)
          cases selectCols is <;> rfl

/-- The heap after resolving `r`, which unfolds over `fp`. -/
abbrev HAfter {α : Type} (At : Heap → Ref → List Ref → α → Prop) (h : Heap) (r : Ref) (fp : List Ref) (a : α) (h' : Heap) : Prop :=
  At h' r fp a ∧ Frame fp h h'

mutual
theorem Query.At.does : ∀ (q : Query) {n : Nat} {s : Schema} {h : Heap} {r : Ref} {fp : List Ref}, q.At h r fp → fp.Nodup →
    Deep h n r → Does (resolveAt n s r h) (q.resolve s) (HAfter (fun h r fp (q : Query) => q.At h r fp) h r fp)
  | q, 0, _, _, _, _, _, _, D => D.elim
  | .mk (.select items none wh gb hv d wins) off lim ob w, n + 1, s, h, r, fp, H, N, D => by
    obtain ⟨ws, fw, fb, ⟨f, dt, ho, hf, hfb⟩, hw, rfl⟩ := H
    subst hf hfb
    refine .skip (Act.get_ok ho) ?_
    rw [Query_resolve_mk]
    show Does _ (QBody.resolve s _ _ >>= _) _
    rw [QBody_resolve_select, Rel_resolveFrom_none]
    show Does ((Act.lift (selectCols items) >>= _) h) (((selectCols items >>= _) >>= _) >>= _) _
    cases hc : selectCols items with
    | error e => exact ⟨h, Act.bind_err rfl⟩
    | ok cs =>
      exact ⟨h, Act.bind_some rfl, ⟨ws, fw, [], ⟨none, dt, ho, rfl, rfl⟩, hw, rfl⟩, fun _ _ => rfl⟩
  | .mk (.select items (some fr) wh gb hv d wins) off lim ob w, n + 1, s, h, r, fp, H, N, D => by
    obtain ⟨ws, fw, fb, ⟨f, dt, ho, a, hf, hr⟩, hw, rfl⟩ := H
    subst hf
    obtain ⟨n1, n2, n3, n4, n5, n6⟩ := nodup_parts N
    have K := D.kids ho
    refine .skip (Act.get_ok ho) ?_
    rw [query_resolve_from]
    refine .step (Named.Ats.does w hw n3 fun c hc => K c (List.mem_append_left _ hc)) fun pw h1 _ e1 ⟨hw1, F1⟩ => .lift fun ex _ => ?_
    have hr1 := Rel.At.congr fr hr (F1.agree n6)
    refine .skip (prune_at hr1 ex) ?_
    have K1 := (K a (List.mem_append_right _ (by simp))).alike (withLoop_alike e1)
    refine .step (Rel.At.does fr hr1 n4 K1) fun p h2 _ e2 ⟨hr2, F2⟩ => ?_
    have hw2 := Named.Ats.congr pw.1 hw1 (F2.agree n5)
    have ho2 : h2 r = some _ := (F2 r n2).trans ((F1 r n1).trans ho)
    refine .skip (Act.get_ok ho2) (.lift fun is hi => ?_)
    obtain ⟨ts, hts⟩ := checks_resolved _ _ _ hi
    refine .skip (c := ts) (h' := h2) (congrArg (fun x => some (x, h2)) hts) ?_
    refine .skip (c := ()) (h' := h2.put r (.select is (some a) wh gb hv d wins off lim ob ws (selectType ts))) rfl
      (.lift fun cs _ => .pure (p := (Query.mk (.select is (some p.1) wh gb hv d wins) off lim ob pw.1, ⟨cs, []⟩)) ?_)
    have F3 : Frame [r] h2 (h2.put r (.select is (some a) wh gb hv d wins off lim ob ws (selectType ts))) := .put
    refine ⟨⟨ws, fw, fb, ⟨some a, selectType ts, put_same, a, rfl, ?_⟩, ?_, rfl⟩, ?_⟩
    · exact Rel.At.congr p.1 hr2 (F3.agree fun b hb hb' => n2 (by rw [← List.mem_singleton.1 hb']; exact hb))
    · exact Named.Ats.congr pw.1 hw2 (F3.agree fun b hb hb' => n1 (by rw [← List.mem_singleton.1 hb']; exact hb))
    · exact (F1.trans (k := r :: (fw ++ fb)) (F2.trans (k := r :: fb) F3 (fun _ m => List.mem_cons_of_mem _ m) (by simp))
        (fun _ m => List.mem_cons_of_mem _ (List.mem_append_left _ m)) (by simp +contextual))
  | .mk (.set k l r' d) off lim ob w, n + 1, s, h, r, fp, H, N, D => by
    obtain ⟨ws, fw, fb, ⟨a, b, dt, fa, fb', ho, hl, hr, rfl⟩, hw, rfl⟩ := H
    obtain ⟨n1, n2, n3, n4, n5, n6⟩ := nodup_parts N
    have n2' : r ∉ fa ∧ r ∉ fb' := ⟨fun m => n2 (List.mem_append_left _ m), fun m => n2 (List.mem_append_right _ m)⟩
    rw [List.nodup_append] at n4
    obtain ⟨m1, m2, m3⟩ := n4
    have K := D.kids ho
    refine .skip (Act.get_ok ho) ?_
    rw [Query_resolve_mk]
    show Does _ (QBody.resolve s _ _ >>= _) _
    rw [QBody_resolve_set]
    have as : ∀ (x : Except Err (Query × Schema)) (y : Except Err (Query × Schema)) (g : QBody × Schema → Except Err (Query × Schema))
        (k : Query × Schema → Query × Schema → Except Err (QBody × Schema)),
        ((x >>= fun p => y >>= fun p' => k p p') >>= g) = (x >>= fun p => y >>= fun p' => k p p' >>= g) := by
      intro x y g k
      cases x with
      | error e => rfl
      | ok p => cases y <;> rfl
    rw [as]
    refine .skip (prune_at_query hl s) ?_
    refine .step (Query.At.does l hl m1 (K a (by simp [RelObj.kids]))) fun p h1 _ e1 ⟨hl1, F1⟩ => ?_
    have hr1 := Query.At.congr r' hr (F1.agree fun x hx hx' => m3 x hx' x hx rfl)
    refine .skip (prune_at_query hr1 s) ?_
    refine .step (Query.At.does r' hr1 m2 ((K b (by simp [RelObj.kids])).alike (resolveAt_alike e1))) fun p' h2 _ e2 ⟨hr2, F2⟩ => ?_
    have F : Frame (fa ++ fb') h h2 := F1.trans F2 (fun _ m => List.mem_append_left _ m) (fun _ m => List.mem_append_right _ m)
    refine .pure (p := (Query.mk (.set k p.1 p'.1 d) off lim ob w, _)) ⟨⟨ws, fw, fa ++ fb', ⟨a, b, dt, fa, fb', ?_, ?_, hr2, rfl⟩, ?_, rfl⟩, ?_⟩
    · exact (F r n2).trans ho
    · exact Query.At.congr p.1 hl1 (F2.agree fun x hx hx' => m3 x hx x hx' rfl)
    · exact Named.Ats.congr w hw (F.agree n5)
    · exact F.mono fun _ m => List.mem_cons_of_mem _ (List.mem_append_right _ m)
  | .mk (.table t) off lim ob w, n + 1, s, h, r, fp, H, N, D => by
    obtain ⟨ws, fw, fb, ⟨a, dt, ho, ht, rfl⟩, hw, rfl⟩ := H
    obtain ⟨n1, n2, n3, n4, n5, n6⟩ := nodup_parts N
    have K := D.kids ho
    refine .skip (Act.get_ok ho) ?_
    rw [Query_resolve_mk]
    show Does _ (Named.resolveW .empty w >>= _) _
    refine .step (Named.Ats.does w hw n3 fun c hc => K c (List.mem_append_left _ hc)) fun pw h1 _ e1 ⟨hw1, F1⟩ => ?_
    have ht1 : h1 a = some (.table t) := (F1 a (n6 a (by simp))).trans ht
    obtain ⟨m, rfl⟩ := ((K a (List.mem_append_right _ (by simp))).pos)
    rw [QBody_resolve_table]
    have e2 : resolveAt (m + 1) pw.2 a h1 = some (.ok (t.resolve pw.2).2, h1.put a (.table (t.resolve pw.2).1)) :=
      (Act.bind_some (Act.get_ok ht1)).trans rfl
    refine .skip e2 ?_
    have ra : r ≠ a := fun e => n2 (by simp [e])
    have F2 : Frame [a] h1 (h1.put a (.table (t.resolve pw.2).1)) := .put
    have ho2 := (F2 r n2).trans ((F1 r n1).trans ho)
    refine .skip (Act.get_ok ho2) ?_
    refine .skip (c := ()) (h' := (h1.put a (.table (t.resolve pw.2).1)).put r (.tableQ a off lim ob ws .unknown)) rfl ?_
    have F3 : Frame [r] (h1.put a (.table (t.resolve pw.2).1)) ((h1.put a (.table (t.resolve pw.2).1)).put r (.tableQ a off lim ob ws .unknown)) := .put
    refine .pure (p := (Query.mk (.table (t.resolve pw.2).1) off lim ob pw.1, (t.resolve pw.2).2))
      ⟨⟨ws, fw, [a], ⟨a, .unknown, put_same, ?_, rfl⟩, ?_, rfl⟩, ?_⟩
    · exact (F3 a (by simp [Ne.symm ra])).trans put_same
    · refine Named.Ats.congr pw.1 (Named.Ats.congr pw.1 hw1 (F2.agree n5)) (F3.agree fun b hb hb' => n1 ?_)
      rw [← List.mem_singleton.1 hb']
      exact hb
    · exact (F1.trans (k := r :: (fw ++ [a])) (F2.trans (k := [r, a]) F3 (by simp) (by simp))
        (fun _ m => List.mem_cons_of_mem _ (List.mem_append_left _ m)) (by simp))
  | .mk (.values es) off lim ob w, n + 1, s, h, r, fp, H, N, D => by
    obtain ⟨ws, fw, fb, ⟨dt, ho, rfl⟩, hw, rfl⟩ := H
    refine .skip (Act.get_ok ho) ?_
    rw [Query_resolve_mk]
    exact ⟨h, rfl⟩
theorem Named.Ats.does : ∀ (w : List Named) {n : Nat} {s : Schema} {h : Heap} {ws fp : List Ref}, Named.Ats h ws fp w → fp.Nodup →
    Deeps h n ws → Does (withLoop (resolveAt n) ws s h) (Named.resolveW s w) (fun w' h' => Named.Ats h' ws fp w' ∧ Frame fp h h')
  | [], n, s, h, ws, fp, H, N, D => by
    obtain ⟨rfl, rfl⟩ := H
    rw [Named_resolveW_nil]
    exact .pure (p := ([], s)) ⟨⟨rfl, rfl⟩, fun _ _ => rfl⟩
  | m :: ms, n, s, h, ws, fp, H, N, D => by
    obtain ⟨a, as, fa, fas, rfl, hm, hms, rfl⟩ := H
    rw [List.nodup_append] at N
    obtain ⟨m1, m2, m3⟩ := N
    rw [Named_resolveW_cons]
    refine .step (Named.At.does m hm m1 (D a (List.mem_cons_self ..))) fun p h1 _ e1 ⟨hm1, F1⟩ => .lift fun mg _ => ?_
    have hms1 := Named.Ats.congr ms hms (F1.agree fun x hx hx' => m3 x hx' x hx rfl)
    refine .map (Named.Ats.does ms hms1 m2 fun c hc => (D c (List.mem_cons_of_mem _ hc)).alike (resolveAt_alike e1))
      (k := fun ns => p.1 :: ns) (fun _ => rfl) fun ns h2 ⟨hns, F2⟩ => ⟨⟨a, as, fa, fas, rfl, ?_, hns, rfl⟩, ?_⟩
    · exact Named.At.congr p.1 hm1 (F2.agree fun x hx hx' => m3 x hx x hx' rfl)
    · exact F1.trans F2 (fun _ m => List.mem_append_left _ m) (fun _ m => List.mem_append_right _ m)
theorem Named.At.does : ∀ (m : Named) {n : Nat} {s : Schema} {h : Heap} {r : Ref} {fp : List Ref}, m.At h r fp → fp.Nodup →
    Deep h n r → Does (resolveAt n s r h) (m.resolve s) (HAfter (fun h r fp (m : Named) => m.At h r fp) h r fp)
  | m, 0, _, _, _, _, _, _, D => D.elim
  | .mk rel a cols, n + 1, s, h, r, fp, H, N, D => by
    obtain ⟨f, fa, ho, hr, rfl⟩ := H
    obtain ⟨n1, n2⟩ := List.nodup_cons.1 N
    have K := D.kids ho f (by simp [RelObj.kids])
    refine .skip (Act.get_ok ho) ?_
    rw [Named_resolve_mk]
    refine .skip (prune_at hr s) ?_
    refine .step (Rel.At.does rel hr n2 K) fun p h1 _ e1 ⟨hr1, F1⟩ => ?_
    refine .skip (Rel.At.key_at p.1 hr1 (K.alike (resolveAt_alike e1))) (.lift fun fs _ => .pure (p := (Named.mk p.1 a cols, _)) ⟨⟨f, fa, ?_, hr1, rfl⟩, ?_⟩)
    · exact (F1 r n1).trans ho
    · exact F1.mono fun _ m => List.mem_cons_of_mem _ m
theorem Rel.At.does : ∀ (R : Rel) {n : Nat} {s : Schema} {h : Heap} {r : Ref} {fp : List Ref}, R.At h r fp → fp.Nodup →
    Deep h n r → Does (resolveAt n s r h) (R.resolve s) (HAfter (fun h r fp (R : Rel) => R.At h r fp) h r fp)
  | R, 0, _, _, _, _, _, _, D => D.elim
  | .table t, n + 1, s, h, r, fp, H, N, D => by
    obtain ⟨ho, rfl⟩ := H
    refine .skip (Act.get_ok ho) ?_
    rw [Rel_resolve_table]
    exact .skip (c := ()) (h' := h.put r (.table (t.resolve s).1)) rfl (.pure (p := (Rel.table (t.resolve s).1, (t.resolve s).2)) ⟨⟨put_same, rfl⟩, .put⟩)
  | .query q, n + 1, s, h, r, fp, H, N, D => by
    rw [Rel_resolve_query]
    exact .map (Query.At.does q H N D) (k := Rel.query) (fun _ => rfl) fun q h2 ⟨h1, F⟩ => ⟨h1, F⟩
  | .aliased m, n + 1, s, h, r, fp, H, N, D => by
    rw [Rel_resolve_aliased]
    exact .map (Named.At.does m H N D) (k := Rel.aliased) (fun _ => rfl) fun q h2 ⟨h1, F⟩ => ⟨h1, F⟩
  | .join l r' t nat cr, n + 1, s, h, r, fp, H, N, D => by
    obtain ⟨a, b, fa, fb, ho, hl, hr, rfl⟩ := H
    obtain ⟨n1, n2, n3, n4, n5, n6⟩ := nodup_parts N
    have K := D.kids ho
    refine .skip (Act.get_ok ho) ?_
    rw [Rel_resolve_join]
    refine .skip (prune_at hl s) ?_
    refine .step (Rel.At.does l hl n3 (K a (by simp [RelObj.kids]))) fun p h1 _ e1 ⟨hl1, F1⟩ => .lift fun ex _ => ?_
    have hr1 := Rel.At.congr r' hr (F1.agree n6)
    refine .skip (prune_at hr1 ex) ?_
    refine .step (Rel.At.does r' hr1 n4 ((K b (by simp [RelObj.kids])).alike (resolveAt_alike e1))) fun p' h2 _ e2 ⟨hr2, F2⟩ => ?_
    have F : Frame (fa ++ fb) h h2 := F1.trans F2 (fun _ m => List.mem_append_left _ m) (fun _ m => List.mem_append_right _ m)
    have good : HAfter (fun h r fp (R : Rel) => R.At h r fp) h r (r :: (fa ++ fb)) (.join p.1 p'.1 t nat cr) h2 := by
      refine ⟨⟨a, b, fa, fb, ?_, Rel.At.congr p.1 hl1 (F2.agree n5), hr2, rfl⟩, F.mono fun _ m => List.mem_cons_of_mem _ m⟩
      exact (F r (by simp [n1, n2])).trans ho
    show Does (Act.lift (p.2.merge p'.2) h2) (p.2.merge p'.2 >>= _) _
    cases p.2.merge p'.2 with
    | error e => exact ⟨h2, rfl⟩
    | ok m => exact ⟨h2, rfl, good⟩
  | .unnest as o, n + 1, s, h, r, fp, H, N, D => by
    obtain ⟨dt, ho, rfl⟩ := H
    refine .skip (Act.get_ok ho) ?_
    rw [Rel_resolve_unnest]
    refine .lift fun as' ha => .lift fun ts _ => ?_
    refine .skip (c := ()) (h' := h.put r (.unnest as' o (.row (ts.map elemType)))) rfl ?_
    rw [← Props.resolved_length _ _ _ ha]
    exact .pure (p := (Rel.unnest as' o, _)) ⟨⟨_, put_same, rfl⟩, .put⟩
  | .lateral q, n + 1, s, h, r, fp, H, N, D => by
    obtain ⟨a, fa, ho, hq, rfl⟩ := H
    obtain ⟨n1, n2⟩ := List.nodup_cons.1 N
    refine .skip (Act.get_ok ho) ?_
    rw [Rel_resolve_lateral]
    refine .map (Query.At.does q hq n2 (D.kids ho a (by simp [RelObj.kids]))) (k := Rel.lateral) (fun _ => rfl) fun q h2 ⟨h1, F⟩ => ?_
    exact ⟨⟨a, fa, (F r n1).trans ho, h1, rfl⟩, F.mono fun _ m => List.mem_cons_of_mem _ m⟩
  | .sample rel t p, n + 1, s, h, r, fp, H, N, D => by
    obtain ⟨a, fa, ho, hq, rfl⟩ := H
    obtain ⟨n1, n2⟩ := List.nodup_cons.1 N
    refine .skip (Act.get_ok ho) ?_
    rw [Rel_resolve_sample]
    refine .map (Rel.At.does rel hq n2 (D.kids ho a (by simp [RelObj.kids]))) (k := fun x => Rel.sample x t p) (fun _ => rfl) fun q h2 ⟨h1, F⟩ => ?_
    exact ⟨⟨a, fa, (F r n1).trans ho, h1, rfl⟩, F.mono fun _ m => List.mem_cons_of_mem _ m⟩
end

end Treeno
