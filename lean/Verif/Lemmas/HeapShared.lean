import Verif.Lemmas.HeapLocal
/-!
Resolving objects that are used at several places, when each of them has one resolution: an object met again is either as it
was or already resolved, and both give the same.
-/
set_option autoImplicit false
namespace Treeno
open Spec Props

theorem SameObj.of_eq {x y : Option RelObj} (e : x = y) : SameObj x y := congrArg _ e

mutual
/-- The same tree in two heaps that are alike: the objects are the same. -/
theorem Query.At.same : ∀ (q : Query) {h k : Heap} {r : Ref} {fp fp' : List Ref}, q.At h r fp → q.At k r fp' → h.Alike k → AgreeOn fp' h k
  | .mk b off lim ob w, h, k, r, fp, fp', H, H', A => by
    obtain ⟨ws, fw, fb, hb, hw, rfl⟩ := H
    obtain ⟨ws', fw', fb', hb', hw', rfl⟩ := H'
    obtain ⟨h1, rfl, h2⟩ := QBody.At.same b hb hb' A
    have h3 := Named.Ats.same w hw hw' A
    intro a ha
    rcases List.mem_cons.1 ha with rfl | ha
    · exact h1
    · rcases List.mem_append.1 ha with ha | ha
      · exact h3 a ha
      · exact h2 a ha
theorem QBody.At.same : ∀ (b : QBody) {h k : Heap} {r : Ref} {fb fb' : List Ref} {off lim : Option Int} {ob : List Ord} {ws ws' : List Ref},
    b.At h r fb off lim ob ws → b.At k r fb' off lim ob ws' → h.Alike k → SameObj (k r) (h r) ∧ ws' = ws ∧ AgreeOn fb' h k
  | .select items fr wh gb hv d wins, h, k, r, fb, fb', off, lim, ob, ws, ws', H, H', A => by
    obtain ⟨f, dt, ho, hf⟩ := H
    obtain ⟨f', dt', ho', hf'⟩ := H'
    obtain ⟨is, dt'', e, _⟩ := A.select ho
    rw [ho'] at e
    cases e
    refine ⟨?_, rfl, Rel.AtOpt.same fr hf hf' A⟩
    rw [ho, ho']
    rfl
  | .set kd l r' d, h, k, r, fb, fb', off, lim, ob, ws, ws', H, H', A => by
    obtain ⟨a, b, dt, fa, fb, ho, hl, hr, rfl⟩ := H
    obtain ⟨a', b', dt', fa', fb', ho', hl', hr', rfl⟩ := H'
    have e := A.same ho fun o' e => by cases o' <;> first | (cases e; done) | exact e
    rw [ho'] at e
    cases e
    refine ⟨.of_eq (by rw [ho, ho']), rfl, fun x hx => ?_⟩
    rcases List.mem_append.1 hx with hx | hx
    · exact Query.At.same l hl hl' A x hx
    · exact Query.At.same r' hr hr' A x hx
  | .table t, h, k, r, fb, fb', off, lim, ob, ws, ws', H, H', A => by
    obtain ⟨a, dt, ho, ht, rfl⟩ := H
    obtain ⟨a', dt', ho', ht', rfl⟩ := H'
    obtain ⟨dt'', e⟩ := A.tableQ ho
    rw [ho'] at e
    cases e
    refine ⟨by rw [ho, ho']; rfl, rfl, fun x hx => ?_⟩
    cases List.mem_singleton.1 hx
    exact .of_eq (ht'.trans ht.symm)
  | .values es, h, k, r, fb, fb', off, lim, ob, ws, ws', H, H', A => by
    obtain ⟨dt, ho, rfl⟩ := H
    obtain ⟨dt', ho', rfl⟩ := H'
    have e := A.same ho fun o' e => by cases o' <;> first | (cases e; done) | exact e
    rw [ho'] at e
    cases e
    exact ⟨.of_eq (by rw [ho, ho']), rfl, fun x hx => by cases hx⟩
theorem Rel.AtOpt.same : ∀ (fr : Option Rel) {h k : Heap} {f : Option Ref} {fp fp' : List Ref}, Rel.AtOpt h f fp fr → Rel.AtOpt k f fp' fr →
    h.Alike k → AgreeOn fp' h k
  | none, _, _, _, _, _, _, H', _ => by
    obtain ⟨_, rfl⟩ := H'
    intro x hx
    cases hx
  | some r, h, k, f, fp, fp', H, H', A => by
    obtain ⟨a, rfl, hr⟩ := H
    obtain ⟨a', e, hr'⟩ := H'
    cases e
    exact Rel.At.same r hr hr' A
theorem Named.Ats.same : ∀ (w : List Named) {h k : Heap} {ws fp fp' : List Ref}, Named.Ats h ws fp w → Named.Ats k ws fp' w →
    h.Alike k → AgreeOn fp' h k
  | [], _, _, _, _, _, _, H', _ => by
    obtain ⟨_, rfl⟩ := H'
    intro x hx
    cases hx
  | n :: ns, h, k, ws, fp, fp', H, H', A => by
    obtain ⟨a, as, fa, fas, rfl, hn, hns, rfl⟩ := H
    obtain ⟨a', as', fa', fas', e, hn', hns', rfl⟩ := H'
    cases e
    intro x hx
    rcases List.mem_append.1 hx with hx | hx
    · exact Named.At.same n hn hn' A x hx
    · exact Named.Ats.same ns hns hns' A x hx
theorem Named.At.same : ∀ (n : Named) {h k : Heap} {r : Ref} {fp fp' : List Ref}, n.At h r fp → n.At k r fp' → h.Alike k → AgreeOn fp' h k
  | .mk rel a cols, h, k, r, fp, fp', H, H', A => by
    obtain ⟨f, fa, ho, hr, rfl⟩ := H
    obtain ⟨f', fa', ho', hr', rfl⟩ := H'
    have e := A.same ho fun o' e => by cases o' <;> first | (cases e; done) | exact e
    rw [ho'] at e
    cases e
    intro x hx
    rcases List.mem_cons.1 hx with rfl | hx
    · exact .of_eq (ho'.trans ho.symm)
    · exact Rel.At.same rel hr hr' A x hx
theorem Rel.At.same : ∀ (R : Rel) {h k : Heap} {r : Ref} {fp fp' : List Ref}, R.At h r fp → R.At k r fp' → h.Alike k → AgreeOn fp' h k
  | .table t, h, k, r, fp, fp', H, H', A => by
    obtain ⟨ho, rfl⟩ := H
    obtain ⟨ho', rfl⟩ := H'
    intro x hx
    cases List.mem_singleton.1 hx
    exact .of_eq (ho'.trans ho.symm)
  | .query q, _, _, _, _, _, H, H', A => Query.At.same q H H' A
  | .aliased n, _, _, _, _, _, H, H', A => Named.At.same n H H' A
  | .join l r' t nat cr, h, k, r, fp, fp', H, H', A => by
    obtain ⟨a, b, fa, fb, ho, hl, hr, rfl⟩ := H
    obtain ⟨a', b', fa', fb', ho', hl', hr', rfl⟩ := H'
    have e := A.same ho fun o' e => by cases o' <;> first | (cases e; done) | exact e
    rw [ho'] at e
    cases e
    intro x hx
    rcases List.mem_cons.1 hx with rfl | hx
    · exact .of_eq (ho'.trans ho.symm)
    · rcases List.mem_append.1 hx with hx | hx
      · exact Rel.At.same l hl hl' A x hx
      · exact Rel.At.same r' hr hr' A x hx
  | .unnest as o, h, k, r, fp, fp', H, H', A => by
    obtain ⟨dt, ho, rfl⟩ := H
    obtain ⟨dt', ho', rfl⟩ := H'
    intro x hx
    cases List.mem_singleton.1 hx
    rw [ho, ho']
    rfl
  | .lateral q, h, k, r, fp, fp', H, H', A => by
    obtain ⟨a, fa, ho, hq, rfl⟩ := H
    obtain ⟨a', fa', ho', hq', rfl⟩ := H'
    have e := A.same ho fun o' e => by cases o' <;> first | (cases e; done) | exact e
    rw [ho'] at e
    cases e
    intro x hx
    rcases List.mem_cons.1 hx with rfl | hx
    · exact .of_eq (ho'.trans ho.symm)
    · exact Query.At.same q hq hq' A x hx
  | .sample rel t p, h, k, r, fp, fp', H, H', A => by
    obtain ⟨a, fa, ho, hq, rfl⟩ := H
    obtain ⟨a', fa', ho', hq', rfl⟩ := H'
    have e := A.same ho fun o' e => by cases o' <;> first | (cases e; done) | exact e
    rw [ho'] at e
    cases e
    intro x hx
    rcases List.mem_cons.1 hx with rfl | hx
    · exact .of_eq (ho'.trans ho.symm)
    · exact Rel.At.same rel hq hq' A x hx
end

theorem mapExprs_length (f : Expr → Expr) (g : TableRef → TableRef) : ∀ es : List Expr, (mapExprs f g es).length = es.length
  | [] => rfl
  | _ :: es => congrArg (· + 1) (mapExprs_length f g es)

/-- The key of a relation is the same in heaps that are alike. -/
theorem keyAt_alike {h h' : Heap} (A : h.Alike h') : ∀ (n : Nat) (r : Ref) (x : Key), keyAt n r h = some (.ok x, h) → keyAt n r h' = some (.ok x, h')
  | 0, _, _, e => by cases e
  | n + 1, r, x, e => by
    rcases Act.bind_inv e with ⟨_, _, e⟩ | ⟨o, h1, e1, e⟩
    · cases e
    obtain ⟨ho, rfl⟩ := Act.get_inv e1
    have step : ∀ {a : Ref} {f : Key → Act Key} {x : Key}, (keyAt n a >>= f) h1 = some (.ok x, h1) →
        (∀ y, f y h1 = some (.ok x, h1) → f y h' = some (.ok x, h')) → (keyAt n a >>= f) h' = some (.ok x, h') := by
      intro a f x e K
      rcases Act.bind_inv e with ⟨_, _, e⟩ | ⟨y, h2, e2, e⟩
      · cases e
      have : h2 = h1 := by
        have S := keyAt_safe (fun _ => False) n a h1 _ _ e2
        funext c
        exact S.only c id
      subst this
      exact (Act.bind_some (keyAt_alike A n a y e2)).trans (K y e)
    obtain ⟨o', ho', hf⟩ := A.some ho
    refine (Act.bind_some (Act.get_ok ho')).trans ?_
    cases o with
    | table t =>
      obtain ⟨t', ht', hf⟩ := A.table ho
      rw [ho'] at ht'
      cases ht'
      cases e
      obtain ⟨n1, s1, c1, cols1⟩ := t
      obtain ⟨n2, s2, c2, cols2⟩ := t'
      cases hf
      rfl
    | unnest as o d =>
      obtain ⟨as', d', ha', hl⟩ := A.unnest ho
      rw [ho'] at ha'
      cases ha'
      cases e
      have := congrArg List.length hl
      rw [mapExprs_length, mapExprs_length] at this
      show some (Except.ok (Key.unnest as'.length o), h') = _
      rw [this]
    | select => cases o' <;> first | (cases hf; done) | (cases e; rfl)
    | set => cases o' <;> first | (cases hf; done) | (cases e; rfl)
    | tableQ => cases o' <;> first | (cases hf; done) | (cases e; rfl)
    | values => cases o' <;> first | (cases hf; done) | (cases e; rfl)
    | lateral => cases o' <;> first | (cases hf; done) | (cases e; rfl)
    | aliased a b c =>
      cases o' <;> first | (cases hf; done) | skip
      cases hf
      exact step e fun y e => by cases e; rfl
    | sample a b c =>
      cases o' <;> first | (cases hf; done) | skip
      cases hf
      exact step e fun y e => by cases e; rfl
    | join a b c d f =>
      cases o' <;> first | (cases hf; done) | skip
      cases hf
      exact step e fun y e => step e fun z e => by cases e; rfl

/-- Every object of `m` is as in `h` or as in `k`. -/
structure Mixed (h k m : Heap) : Prop where
  alike : h.Alike m
  mix : ∀ a, SameObj (m a) (h a) ∨ SameObj (m a) (k a)

/-- From `m` to `m'`: nothing resolved is lost and `fp` is resolved. -/
structure Resolved (h k m : Heap) (fp : List Ref) (m' : Heap) : Prop where
  mixed : Mixed h k m'
  keep : ∀ a, SameObj (m a) (k a) → SameObj (m' a) (k a)
  done : ∀ a ∈ fp, SameObj (m' a) (k a)

/-- The answer, and what it leaves. -/
def Answers (x : Act Schema) (t : Schema) (h k m : Heap) (fp : List Ref) : Prop := ∃ m', x m = some (.ok t, m') ∧ Resolved h k m fp m'

theorem Mixed.put {h k m : Heap} (M : Mixed h k m) {r : Ref} {o o' : RelObj} (ho : k r = some o') (e : o.strip = o'.strip) (hk : h.Alike k)
    (hf : o.forget = o'.forget) : Resolved h k m [r] (m.put r o) := by
  have hd : SameObj (m.put r o r) (k r) := by
    rw [put_same, ho]
    exact congrArg some e
  refine ⟨⟨fun a => ?_, fun a => ?_⟩, fun a ha => ?_, fun a ha => ?_⟩
  · by_cases ha : a = r
    · subst ha
      rw [put_same, ← hk a, ho]
      exact congrArg some hf
    · rw [show m.put r o a = m a from if_neg ha]
      exact M.alike a
  · by_cases ha : a = r
    · subst ha
      exact .inr hd
    · rw [show m.put r o a = m a from if_neg ha]
      exact M.mix a
  · by_cases ha' : a = r
    · subst ha'
      exact hd
    · rw [show m.put r o a = m a from if_neg ha']
      exact ha
  · cases List.mem_singleton.1 ha
    exact hd

/-- What is unchanged by any resolution is resolved. -/
theorem Mixed.idle {h k m : Heap} (M : Mixed h k m) {fp : List Ref} (H : AgreeOn fp h k) : ∀ a ∈ fp, SameObj (m a) (k a) := fun a ha => by
  rcases M.mix a with e | e
  · exact e.trans (H a ha).symm
  · exact e

theorem Mixed.plain {h k m : Heap} (M : Mixed h k m) {r : Ref} (H : SameObj (k r) (h r)) : SameObj (m r) (k r) :=
  M.idle (fp := [r]) (fun a ha => by cases List.mem_singleton.1 ha; exact H) r (List.mem_singleton.2 rfl)

theorem Resolved.trans {h k m m1 m2 : Heap} {f g l : List Ref} (R : Resolved h k m f m1) (S : Resolved h k m1 g m2)
    (hl : ∀ a ∈ l, a ∈ f ∨ a ∈ g ∨ SameObj (m2 a) (k a)) : Resolved h k m l m2 :=
  ⟨S.mixed, fun a ha => S.keep a (R.keep a ha), fun a ha => by
    rcases hl a ha with h1 | h1 | h1
    · exact S.keep a (R.done a h1)
    · exact S.done a h1
    · exact h1⟩
theorem Resolved.refl {h k m : Heap} (M : Mixed h k m) {l : List Ref} (hl : ∀ a ∈ l, SameObj (m a) (k a)) : Resolved h k m l m :=
  ⟨M, fun _ ha => ha, hl⟩
theorem Resolved.more {h k m m1 : Heap} {f l : List Ref} (R : Resolved h k m f m1) (hl : ∀ a ∈ l, a ∈ f ∨ SameObj (m1 a) (k a)) :
    Resolved h k m l m1 :=
  ⟨R.mixed, R.keep, fun a ha => by
    rcases hl a ha with h1 | h1
    · exact R.done a h1
    · exact h1⟩

theorem prune_alike {h m : Heap} {r : Ref} {R : Rel} {fp : List Ref} (H : R.At h r fp) (A : h.Alike m) (s : Schema) :
    pruneAt r s m = some (.ok (prune R s), m) := by
  obtain ⟨o, ho, e⟩ := Rel.At.obj H
  obtain ⟨o', ho', hf⟩ := A.some ho
  refine (Act.bind_some (Act.get_ok ho')).trans ?_
  show some (Except.ok (if o'.isQuery then _ else _), m) = _
  rw [RelObj.forget_isQuery hf, e]
  rfl
theorem prune_alike_query {h m : Heap} {r : Ref} {q : Query} {fp : List Ref} (H : q.At h r fp) (A : h.Alike m) (s : Schema) :
    pruneAt r s m = some (.ok .empty, m) := prune_alike (R := .query q) H A s

theorem Mixed.select {h k m : Heap} (M : Mixed h k m) {r : Ref} {items f wh gb hv d wins off lim ob w dt items' dt'}
    (ho : h r = some (.select items f wh gb hv d wins off lim ob w dt)) (hk : k r = some (.select items' f wh gb hv d wins off lim ob w dt')) :
    ∃ is dt'', m r = some (.select is f wh gb hv d wins off lim ob w dt'') ∧ (is = items ∨ is = items') := by
  rcases M.mix r with e | e
  · rw [ho] at e
    obtain ⟨dt'', e⟩ := e.select
    exact ⟨_, _, e, .inl rfl⟩
  · rw [hk] at e
    obtain ⟨dt'', e⟩ := e.select
    exact ⟨_, _, e, .inr rfl⟩

theorem selectCols_of {s : Schema} {is is' items : List Expr} (h : resolveFieldsL s items = .ok is') (e : is = items ∨ is = is') :
    resolveFieldsL s is = .ok is' := by
  rcases e with rfl | rfl
  · exact h
  · exact C58_expressions s _ _ h

theorem table_shared {n : Nat} {s : Schema} {h k m : Heap} {r : Ref} {t : TableRef} (ho : h r = some (.table t))
    (ho' : k r = some (.table (t.resolve s).1)) (A : h.Alike k) (M : Mixed h k m) (D : Deep m n r) :
    Answers (resolveAt n s r) (t.resolve s).2 h k m [r] := by
  obtain ⟨n, rfl⟩ := D.pos
  obtain ⟨t', h0, ht⟩ : ∃ t', m r = some (.table t') ∧ t'.resolve s = t.resolve s := by
    rcases M.mix r with e | e
    · rw [ho] at e
      exact ⟨t, e.plain, rfl⟩
    · rw [ho'] at e
      exact ⟨_, e.plain, tableResolve_fixed s t⟩
  have P : Resolved h k m [r] (m.put r (.table (t.resolve s).1)) := M.put ho' rfl A rfl
  refine ⟨_, (Act.bind_some (Act.get_ok h0)).trans ?_, P⟩
  show some (Except.ok (t'.resolve s).2, m.put r (.table (t'.resolve s).1)) = _
  rw [ht]

mutual
theorem Query.At.shared : ∀ (q : Query) {n : Nat} {s : Schema} {h k m : Heap} {r : Ref} {fp fp' : List Ref} {p : Query × Schema}, q.At h r fp →
    p.1.At k r fp' → h.Alike k → q.resolve s = .ok p → Mixed h k m → Deep m n r → Answers (resolveAt n s r) p.2 h k m fp'
  | q, 0, _, _, _, _, _, _, _, _, _, _, _, _, _, D => D.elim
  | .mk (.select items none wh gb hv d wins) off lim ob w, n + 1, s, h, k, m, r, fp, fp', p, H, H', A, E, M, D => by
    rw [Query_resolve_mk] at E
    obtain ⟨pw, e1, E⟩ := bind_ok E
    cases e1
    obtain ⟨x, e2, E⟩ := bind_ok E
    cases E
    rw [QBody_resolve_select, Rel_resolveFrom_none] at e2
    obtain ⟨y, e3, e2⟩ := bind_ok e2
    cases e2
    obtain ⟨cs, e4, e3⟩ := bind_ok e3
    cases e3
    have S := Query.At.same _ H H' A
    obtain ⟨ws, fw, fb, ⟨f, dt, ho, hf, hfb⟩, hw, rfl⟩ := H
    subst hf hfb
    obtain ⟨ws', fw', fb', ⟨f', dt', hk, hf', hfb'⟩, hw', rfl⟩ := H'
    obtain ⟨is, dt'', e, _⟩ := A.select ho
    rw [hk] at e
    cases e
    obtain ⟨is, dt', ho', hi⟩ := M.select ho hk
    have hi : is = items := by rcases hi with h | h <;> exact h
    subst hi
    exact ⟨m, (Act.bind_some (Act.get_ok ho')).trans (Act.bind_some (congrArg (fun x => some (x, m)) e4)), .refl M (M.idle S)⟩
  | .mk (.select items (some fr) wh gb hv d wins) off lim ob w, n + 1, s, h, k, m, r, fp, fp', p, H, H', A, E, M, D => by
    rw [query_resolve_from] at E
    obtain ⟨pw, e1, E⟩ := bind_ok E
    obtain ⟨ex, e2, E⟩ := bind_ok E
    obtain ⟨pf, e3, E⟩ := bind_ok E
    obtain ⟨is, e4, E⟩ := bind_ok E
    obtain ⟨cs, e5, E⟩ := bind_ok E
    cases E
    obtain ⟨ws, fw, fb, ⟨f, dt, ho, a, hf, hr⟩, hw, rfl⟩ := H
    subst hf
    obtain ⟨ws', fw', fb', ⟨f', dt', ho', a', hf', hr'⟩, hw', rfl⟩ := H'
    obtain ⟨is', dt'', e, _⟩ := A.select ho
    rw [ho'] at e
    cases e
    cases hf'
    obtain ⟨i0, d0, h0, _⟩ := M.select ho ho'
    have K := D.kids h0
    obtain ⟨m1, a1, R1⟩ := Named.Ats.shared w hw hw' A e1 M fun c hc => K c (List.mem_append_left _ hc)
    have K1 := (K a (List.mem_append_right _ (by simp))).alike (withLoop_alike a1)
    obtain ⟨m2, a2, R2⟩ := Rel.At.shared fr hr hr' A e3 R1.mixed K1
    obtain ⟨i2, d2, h2, hi⟩ := R2.mixed.select ho ho'
    obtain ⟨ts, hts⟩ := checks_resolved _ _ _ e4
    have P : Resolved h k m2 [r] (m2.put r (.select is (some a) wh gb hv d wins off lim ob ws (selectType ts))) :=
      R2.mixed.put ho' rfl A rfl
    refine ⟨_, (Act.bind_some (Act.get_ok h0)).trans ((Act.bind_some a1).trans ((Act.bind_some (congrArg (fun x => some (x, m1)) e2)).trans
      ((Act.bind_some (prune_alike hr R1.mixed.alike ex)).trans ((Act.bind_some a2).trans ((Act.bind_some (Act.get_ok h2)).trans
      ((Act.bind_some (congrArg (fun x => some (x, m2)) (selectCols_of e4 hi))).trans ((Act.bind_some (congrArg (fun x => some (x, m2)) hts)).trans
      ((Act.bind_some rfl).trans (Act.bind_some (congrArg (fun x => some (x, _)) e5)))))))))), ?_⟩
    refine (R1.trans (l := fw' ++ fb') R2 fun x hx => ?_).trans P fun x hx => ?_
    · rcases List.mem_append.1 hx with hx | hx
      · exact .inl hx
      · exact .inr (.inl hx)
    · rcases List.mem_cons.1 hx with rfl | hx
      · exact .inr (.inl (List.mem_singleton.2 rfl))
      · exact .inl hx
  | .mk (.set kd l r' d) off lim ob w, n + 1, s, h, k, m, r, fp, fp', p, H, H', A, E, M, D => by
    rw [Query_resolve_mk] at E
    obtain ⟨pw, e1, E⟩ := bind_ok E
    cases e1
    obtain ⟨x, e2, E⟩ := bind_ok E
    cases E
    rw [QBody_resolve_set] at e2
    obtain ⟨p1, e3, e2⟩ := bind_ok e2
    obtain ⟨p2, e4, e2⟩ := bind_ok e2
    cases e2
    obtain ⟨ws, fw, fb, ⟨a, b, dt, fa, fb', ho, hl, hr, rfl⟩, hw, rfl⟩ := H
    obtain ⟨ws', fw', _, ⟨a', b', dt', fa', fb'', ho', hl', hr', rfl⟩, hw', rfl⟩ := H'
    have e := A.same ho fun o' e => by cases o' <;> first | (cases e; done) | exact e
    rw [ho'] at e
    cases e
    have hm := M.alike.same ho fun o' e => by cases o' <;> first | (cases e; done) | exact e
    have K := D.kids hm
    obtain ⟨m1, a1, R1⟩ := Query.At.shared l hl hl' A e3 M (K a (by simp [RelObj.kids]))
    obtain ⟨m2, a2, R2⟩ := Query.At.shared r' hr hr' A e4 R1.mixed ((K b (by simp [RelObj.kids])).alike (resolveAt_alike a1))
    refine ⟨m2, (Act.bind_some (Act.get_ok hm)).trans ((Act.bind_some (prune_alike_query hl M.alike s)).trans ((Act.bind_some a1).trans
      ((Act.bind_some (prune_alike_query hr R1.mixed.alike s)).trans (Act.bind_some a2)))), ?_⟩
    refine R1.trans R2 fun x hx => ?_
    rcases List.mem_cons.1 hx with rfl | hx
    · exact .inr (.inr (R2.mixed.plain (.of_eq (ho'.trans ho.symm))))
    · rcases List.mem_append.1 hx with hx | hx
      · exact .inr (.inr (R2.mixed.idle (Named.Ats.same w hw hw' A) x hx))
      · rcases List.mem_append.1 hx with hx | hx
        · exact .inl hx
        · exact .inr (.inl hx)
  | .mk (.table t) off lim ob w, n + 1, s, h, k, m, r, fp, fp', p, H, H', A, E, M, D => by
    rw [Query_resolve_mk] at E
    obtain ⟨pw, e1, E⟩ := bind_ok E
    obtain ⟨x, e2, E⟩ := bind_ok E
    cases E
    rw [QBody_resolve_table] at e2
    cases e2
    obtain ⟨ws, fw, fb, ⟨a, dt, ho, ht, rfl⟩, hw, rfl⟩ := H
    obtain ⟨ws', fw', _, ⟨a', dt', ho', ht', rfl⟩, hw', rfl⟩ := H'
    obtain ⟨d1, e⟩ := A.tableQ ho
    rw [ho'] at e
    cases e
    obtain ⟨d0, h0⟩ := M.alike.tableQ ho
    have K := D.kids h0
    obtain ⟨m1, a1, R1⟩ := Named.Ats.shared w hw hw' A e1 M fun c hc => K c (List.mem_append_left _ hc)
    have K1 := (K a (List.mem_append_right _ (by simp))).alike (withLoop_alike a1)
    obtain ⟨m2, a2, R2⟩ := table_shared ht ht' A R1.mixed K1
    obtain ⟨d2, h2⟩ := R2.mixed.alike.tableQ ho
    have P : Resolved h k m2 [r] (m2.put r (.tableQ a off lim ob ws .unknown)) := R2.mixed.put ho' rfl A rfl
    refine ⟨_, (Act.bind_some (Act.get_ok h0)).trans ((Act.bind_some a1).trans ((Act.bind_some a2).trans
      ((Act.bind_some (Act.get_ok h2)).trans (Act.bind_some rfl)))), ?_⟩
    refine (R1.trans (l := fw' ++ [a]) R2 fun x hx => ?_).trans P fun x hx => ?_
    · rcases List.mem_append.1 hx with hx | hx
      · exact .inl hx
      · exact .inr (.inl hx)
    · rcases List.mem_cons.1 hx with rfl | hx
      · exact .inr (.inl (List.mem_singleton.2 rfl))
      · exact .inl hx
  | .mk (.values es) off lim ob w, n + 1, s, h, k, m, r, fp, fp', p, H, H', A, E, M, D => by
    rw [Query_resolve_mk] at E
    obtain ⟨pw, e1, E⟩ := bind_ok E
    obtain ⟨x, e2, E⟩ := bind_ok E
    cases e2
theorem Named.Ats.shared : ∀ (w : List Named) {n : Nat} {s : Schema} {h k m : Heap} {ws fp fp' : List Ref} {p : List Named × Schema},
    Named.Ats h ws fp w → Named.Ats k ws fp' p.1 → h.Alike k → Named.resolveW s w = .ok p → Mixed h k m → Deeps m n ws →
    Answers (withLoop (resolveAt n) ws s) p.2 h k m fp'
  | [], n, s, h, k, m, ws, fp, fp', p, H, H', A, E, M, D => by
    rw [Named_resolveW_nil] at E
    cases E
    obtain ⟨rfl, rfl⟩ := H'
    exact ⟨m, rfl, .refl M fun _ hx => by cases hx⟩
  | y :: ys, n, s, h, k, m, ws, fp, fp', p, H, H', A, E, M, D => by
    rw [Named_resolveW_cons] at E
    obtain ⟨p1, e1, E⟩ := bind_ok E
    obtain ⟨mg, e2, E⟩ := bind_ok E
    obtain ⟨p2, e3, E⟩ := bind_ok E
    cases E
    obtain ⟨a, as, fa, fas, rfl, hm, hms, rfl⟩ := H
    obtain ⟨a', as', fa', fas', e, hm', hms', rfl⟩ := H'
    cases e
    obtain ⟨m1, a1, R1⟩ := Named.At.shared y hm hm' A e1 M (D a (List.mem_cons_self ..))
    obtain ⟨m2, a2, R2⟩ := Named.Ats.shared ys hms hms' A e3 R1.mixed fun c hc => (D c (List.mem_cons_of_mem _ hc)).alike (resolveAt_alike a1)
    refine ⟨m2, (Act.bind_some a1).trans ((Act.bind_some (congrArg (fun x => some (x, m1)) e2)).trans a2), R1.trans R2 fun x hx => ?_⟩
    rcases List.mem_append.1 hx with hx | hx
    · exact .inl hx
    · exact .inr (.inl hx)
theorem Named.At.shared : ∀ (y : Named) {n : Nat} {s : Schema} {h k m : Heap} {r : Ref} {fp fp' : List Ref} {p : Named × Schema}, y.At h r fp →
    p.1.At k r fp' → h.Alike k → y.resolve s = .ok p → Mixed h k m → Deep m n r → Answers (resolveAt n s r) p.2 h k m fp'
  | y, 0, _, _, _, _, _, _, _, _, _, _, _, _, _, D => D.elim
  | .mk rel al cols, n + 1, s, h, k, m, r, fp, fp', p, H, H', A, E, M, D => by
    rw [Named_resolve_mk] at E
    obtain ⟨p1, e1, E⟩ := bind_ok E
    obtain ⟨fs, e2, E⟩ := bind_ok E
    cases E
    obtain ⟨f, fa, ho, hr, rfl⟩ := H
    obtain ⟨f', fa', ho', hr', rfl⟩ := H'
    have e := A.same ho fun o' e => by cases o' <;> first | (cases e; done) | exact e
    rw [ho'] at e
    cases e
    have hm := M.alike.same ho fun o' e => by cases o' <;> first | (cases e; done) | exact e
    have K := D.kids hm f (by simp [RelObj.kids])
    obtain ⟨m1, a1, R1⟩ := Rel.At.shared rel hr hr' A e1 M K
    have key : keyAt n f m1 = some (.ok p1.1.key, m1) := by
      rw [(C58_relation _ rel p1 e1).2]
      exact keyAt_alike R1.mixed.alike n f _ (Rel.At.key_at rel hr (K.alike M.alike.symm))
    refine ⟨m1, (Act.bind_some (Act.get_ok hm)).trans ((Act.bind_some (prune_alike hr M.alike s)).trans ((Act.bind_some a1).trans
      ((Act.bind_some key).trans (Act.bind_some (congrArg (fun x => some (x, m1)) e2))))), R1.more fun x hx => ?_⟩
    rcases List.mem_cons.1 hx with rfl | hx
    · exact .inr (R1.mixed.plain (.of_eq (ho'.trans ho.symm)))
    · exact .inl hx
theorem Rel.At.shared : ∀ (R : Rel) {n : Nat} {s : Schema} {h k m : Heap} {r : Ref} {fp fp' : List Ref} {p : Rel × Schema}, R.At h r fp →
    p.1.At k r fp' → h.Alike k → R.resolve s = .ok p → Mixed h k m → Deep m n r → Answers (resolveAt n s r) p.2 h k m fp'
  | R, 0, _, _, _, _, _, _, _, _, _, _, _, _, _, D => D.elim
  | .table t, n + 1, s, h, k, m, r, fp, fp', p, H, H', A, E, M, D => by
    rw [Rel_resolve_table] at E
    cases E
    obtain ⟨ho, rfl⟩ := H
    obtain ⟨ho', rfl⟩ := H'
    exact table_shared ho ho' A M D
  | .query q, n + 1, s, h, k, m, r, fp, fp', p, H, H', A, E, M, D => by
    rw [Rel_resolve_query] at E
    obtain ⟨p1, e1, E⟩ := bind_ok E
    cases E
    exact Query.At.shared q H H' A e1 M D
  | .aliased y, n + 1, s, h, k, m, r, fp, fp', p, H, H', A, E, M, D => by
    rw [Rel_resolve_aliased] at E
    obtain ⟨p1, e1, E⟩ := bind_ok E
    cases E
    exact Named.At.shared y H H' A e1 M D
  | .join l r' t nat cr, n + 1, s, h, k, m, r, fp, fp', p, H, H', A, E, M, D => by
    rw [Rel_resolve_join] at E
    obtain ⟨p1, e1, E⟩ := bind_ok E
    obtain ⟨ex, e2, E⟩ := bind_ok E
    obtain ⟨p2, e3, E⟩ := bind_ok E
    obtain ⟨mg, e4, E⟩ := bind_ok E
    cases E
    obtain ⟨a, b, fa, fb, ho, hl, hr, rfl⟩ := H
    obtain ⟨a', b', fa', fb', ho', hl', hr', rfl⟩ := H'
    have e := A.same ho fun o' e => by cases o' <;> first | (cases e; done) | exact e
    rw [ho'] at e
    cases e
    have hm := M.alike.same ho fun o' e => by cases o' <;> first | (cases e; done) | exact e
    have K := D.kids hm
    obtain ⟨m1, a1, R1⟩ := Rel.At.shared l hl hl' A e1 M (K a (by simp [RelObj.kids]))
    obtain ⟨m2, a2, R2⟩ := Rel.At.shared r' hr hr' A e3 R1.mixed ((K b (by simp [RelObj.kids])).alike (resolveAt_alike a1))
    refine ⟨m2, (Act.bind_some (Act.get_ok hm)).trans ((Act.bind_some (prune_alike hl M.alike s)).trans ((Act.bind_some a1).trans
      ((Act.bind_some (congrArg (fun x => some (x, m1)) e2)).trans ((Act.bind_some (prune_alike hr R1.mixed.alike ex)).trans
      ((Act.bind_some a2).trans (congrArg (fun x => some (x, m2)) e4)))))), R1.trans R2 fun x hx => ?_⟩
    rcases List.mem_cons.1 hx with rfl | hx
    · exact .inr (.inr (R2.mixed.plain (.of_eq (ho'.trans ho.symm))))
    · rcases List.mem_append.1 hx with hx | hx
      · exact .inl hx
      · exact .inr (.inl hx)
  | .unnest as o, n + 1, s, h, k, m, r, fp, fp', p, H, H', A, E, M, D => by
    rw [Rel_resolve_unnest] at E
    obtain ⟨as', e1, E⟩ := bind_ok E
    obtain ⟨ts, e2, E⟩ := bind_ok E
    cases E
    obtain ⟨dt, ho, rfl⟩ := H
    obtain ⟨dt', ho', rfl⟩ := H'
    obtain ⟨i, d0, h0, hi⟩ : ∃ i d0, m r = some (.unnest i o d0) ∧ (i = as ∨ i = as') := by
      rcases M.mix r with e | e
      · rw [ho] at e
        obtain ⟨d0, e⟩ := e.unnest
        exact ⟨_, _, e, .inl rfl⟩
      · rw [ho'] at e
        obtain ⟨d0, e⟩ := e.unnest
        exact ⟨_, _, e, .inr rfl⟩
    have P : Resolved h k m [r] (m.put r (.unnest as' o (.row (ts.map elemType)))) := M.put ho' rfl A rfl
    refine ⟨_, (Act.bind_some (Act.get_ok h0)).trans ((Act.bind_some (congrArg (fun x => some (x, m)) (selectCols_of e1 hi))).trans
      ((Act.bind_some (congrArg (fun x => some (x, m)) e2)).trans ((Act.bind_some rfl).trans ?_))), P⟩
    rw [← resolved_length _ _ _ e1]
    rfl
  | .lateral q, n + 1, s, h, k, m, r, fp, fp', p, H, H', A, E, M, D => by
    rw [Rel_resolve_lateral] at E
    obtain ⟨p1, e1, E⟩ := bind_ok E
    cases E
    obtain ⟨a, fa, ho, hq, rfl⟩ := H
    obtain ⟨a', fa', ho', hq', rfl⟩ := H'
    have e := A.same ho fun o' e => by cases o' <;> first | (cases e; done) | exact e
    rw [ho'] at e
    cases e
    have hm := M.alike.same ho fun o' e => by cases o' <;> first | (cases e; done) | exact e
    obtain ⟨m1, a1, R1⟩ := Query.At.shared q hq hq' A e1 M (D.kids hm a (by simp [RelObj.kids]))
    refine ⟨m1, (Act.bind_some (Act.get_ok hm)).trans a1, R1.more fun x hx => ?_⟩
    rcases List.mem_cons.1 hx with rfl | hx
    · exact .inr (R1.mixed.plain (.of_eq (ho'.trans ho.symm)))
    · exact .inl hx
  | .sample rel t pc, n + 1, s, h, k, m, r, fp, fp', p, H, H', A, E, M, D => by
    rw [Rel_resolve_sample] at E
    obtain ⟨p1, e1, E⟩ := bind_ok E
    cases E
    obtain ⟨a, fa, ho, hq, rfl⟩ := H
    obtain ⟨a', fa', ho', hq', rfl⟩ := H'
    have e := A.same ho fun o' e => by cases o' <;> first | (cases e; done) | exact e
    rw [ho'] at e
    cases e
    have hm := M.alike.same ho fun o' e => by cases o' <;> first | (cases e; done) | exact e
    obtain ⟨m1, a1, R1⟩ := Rel.At.shared rel hq hq' A e1 M (D.kids hm a (by simp [RelObj.kids]))
    refine ⟨m1, (Act.bind_some (Act.get_ok hm)).trans a1, R1.more fun x hx => ?_⟩
    rcases List.mem_cons.1 hx with rfl | hx
    · exact .inr (R1.mixed.plain (.of_eq (ho'.trans ho.symm)))
    · exact .inl hx
end

end Treeno
