import Verif.Lemmas.HeapKept
import Verif.Lemmas.Forgets
/-! Heaps that are alike unfold to trees that differ in types and remembered columns only; resolving a finite object ends. -/
set_option autoImplicit false
namespace Treeno
open Spec

/-- Objects with nothing to forget. -/
theorem Heap.Alike.same {h h' : Heap} (A : h.Alike h') {r : Ref} {o : RelObj} (ho : h r = .some o)
    (hf : ∀ o' : RelObj, o'.forget = o.forget → o' = o) : h' r = .some o := by
  obtain ⟨o', ho', hf'⟩ := A.some ho
  rw [ho', hf o' hf']

theorem Heap.Alike.table {h h' : Heap} (A : h.Alike h') {r : Ref} {t : TableRef} (ho : h r = .some (.table t)) :
    ∃ t', h' r = .some (.table t') ∧ forgetTable t' = forgetTable t := by
  obtain ⟨o', ho', hf⟩ := A.some ho
  cases o' <;> first | (cases hf; done) | skip
  next t' =>
    injection hf with hf
    exact ⟨t', ho', hf⟩

theorem Heap.Alike.select {h h' : Heap} (A : h.Alike h') {r : Ref} {items f wh gb hv d wins off lim ob w dt}
    (ho : h r = .some (.select items f wh gb hv d wins off lim ob w dt)) :
    ∃ items' dt', h' r = .some (.select items' f wh gb hv d wins off lim ob w dt') ∧
      mapExprs forgetNode forgetTable items' = mapExprs forgetNode forgetTable items := by
  obtain ⟨o', ho', hf⟩ := A.some ho
  cases o' <;> first | (cases hf; done) | skip
  injection hf
  subst_vars
  exact ⟨_, _, ho', by assumption⟩

theorem Heap.Alike.tableQ {h h' : Heap} (A : h.Alike h') {r : Ref} {t off lim ob w dt}
    (ho : h r = .some (.tableQ t off lim ob w dt)) : ∃ dt', h' r = .some (.tableQ t off lim ob w dt') := by
  obtain ⟨o', ho', hf⟩ := A.some ho
  cases o' <;> first | (cases hf; done) | skip
  injection hf
  subst_vars
  exact ⟨_, ho'⟩

theorem Heap.Alike.unnest {h h' : Heap} (A : h.Alike h') {r : Ref} {as o dt} (ho : h r = .some (.unnest as o dt)) :
    ∃ as' dt', h' r = .some (.unnest as' o dt') ∧ mapExprs forgetNode forgetTable as' = mapExprs forgetNode forgetTable as := by
  obtain ⟨o', ho', hf⟩ := A.some ho
  cases o' <;> first | (cases hf; done) | skip
  injection hf
  subst_vars
  exact ⟨_, _, ho', by assumption⟩

/-- The tree of the other heap. -/
abbrev sameTree {α β : Type} (P : α → Prop) (f : α → β) (x : α) : Prop := ∃ y, P y ∧ f y = f x

mutual
theorem Query.At.alike : ∀ (q : Query) {h h' : Heap} {r : Ref} {fp : List Ref}, q.At h r fp → h.Alike h' →
    sameTree (fun q => q.At h' r fp) (mapQuery forgetNode forgetTable) q
  | .mk b off lim ob w, h, h', r, fp, H, A => by
    obtain ⟨ws, fw, fb, hb, hw, rfl⟩ := H
    obtain ⟨b', hb', e1⟩ := QBody.At.alike b hb A
    obtain ⟨w', hw', e2⟩ := Named.Ats.alike w hw A
    refine ⟨.mk b' off lim ob w', ⟨ws, fw, fb, hb', hw', rfl⟩, ?_⟩
    show Query.mk _ _ _ _ _ = Query.mk _ _ _ _ _
    rw [e1, e2]
theorem QBody.At.alike : ∀ (b : QBody) {h h' : Heap} {r : Ref} {fb : List Ref} {off lim : Option Int} {ob : List Ord} {ws : List Ref},
    b.At h r fb off lim ob ws → h.Alike h' → sameTree (fun b => b.At h' r fb off lim ob ws) (mapQBody forgetNode forgetTable) b
  | .select items fr wh gb hv d wins, h, h', r, fb, off, lim, ob, ws, H, A => by
    obtain ⟨f, dt, ho, hf⟩ := H
    obtain ⟨items', dt', ho', e1⟩ := A.select ho
    obtain ⟨fr', hf', e2⟩ := Rel.AtOpt.alike fr hf A
    refine ⟨.select items' fr' wh gb hv d wins, ⟨f, dt', ho', hf'⟩, ?_⟩
    show QBody.select _ _ _ _ _ _ _ = QBody.select _ _ _ _ _ _ _
    rw [e1, e2]
  | .set k l r' d, h, h', r, fb, off, lim, ob, ws, H, A => by
    obtain ⟨a, b, dt, fa, fb', ho, hl, hr, rfl⟩ := H
    obtain ⟨l', hl', e1⟩ := Query.At.alike l hl A
    obtain ⟨r'', hr', e2⟩ := Query.At.alike r' hr A
    refine ⟨.set k l' r'' d, ⟨a, b, dt, fa, fb', A.same ho ?_, hl', hr', rfl⟩, ?_⟩
    · intro o e
      cases o <;> first | exact e | cases e
    · show QBody.set _ _ _ _ = QBody.set _ _ _ _
      rw [e1, e2]
  | .table t, h, h', r, fb, off, lim, ob, ws, H, A => by
    obtain ⟨a, dt, ho, ht, rfl⟩ := H
    obtain ⟨dt', ho'⟩ := A.tableQ ho
    obtain ⟨t', ht', e⟩ := A.table ht
    exact ⟨.table t', ⟨a, dt', ho', ht', rfl⟩, congrArg QBody.table e⟩
  | .values es, h, h', r, fb, off, lim, ob, ws, H, A => by
    obtain ⟨dt, ho, rfl⟩ := H
    refine ⟨.values es, ⟨dt, A.same ho ?_, rfl⟩, rfl⟩
    intro o e
    cases o <;> first | exact e | cases e
theorem Rel.AtOpt.alike : ∀ (fr : Option Rel) {h h' : Heap} {f : Option Ref} {fp : List Ref}, Rel.AtOpt h f fp fr →
    h.Alike h' → sameTree (fun fr => Rel.AtOpt h' f fp fr) (mapRelOpt forgetNode forgetTable) fr
  | none, _, _, _, _, H, _ => ⟨none, H, rfl⟩
  | some r, h, h', f, fp, H, A => by
    obtain ⟨a, rfl, hr⟩ := H
    obtain ⟨r', hr', e⟩ := Rel.At.alike r hr A
    exact ⟨some r', ⟨a, rfl, hr'⟩, congrArg some e⟩
theorem Named.Ats.alike : ∀ (w : List Named) {h h' : Heap} {ws fp : List Ref}, Named.Ats h ws fp w → h.Alike h' →
    sameTree (fun w => Named.Ats h' ws fp w) (mapNameds forgetNode forgetTable) w
  | [], _, _, _, _, H, _ => ⟨[], H, rfl⟩
  | n :: ns, h, h', ws, fp, H, A => by
    obtain ⟨a, as, fa, fas, rfl, hn, hns, rfl⟩ := H
    obtain ⟨n', hn', e1⟩ := Named.At.alike n hn A
    obtain ⟨ns', hns', e2⟩ := Named.Ats.alike ns hns A
    refine ⟨n' :: ns', ⟨a, as, fa, fas, rfl, hn', hns', rfl⟩, ?_⟩
    show _ :: _ = _ :: _
    rw [e1, e2]
theorem Named.At.alike : ∀ (n : Named) {h h' : Heap} {r : Ref} {fp : List Ref}, n.At h r fp → h.Alike h' →
    sameTree (fun n => n.At h' r fp) (mapNamed forgetNode forgetTable) n
  | .mk rel a cols, h, h', r, fp, H, A => by
    obtain ⟨f, fa, ho, hr, rfl⟩ := H
    obtain ⟨r', hr', e⟩ := Rel.At.alike rel hr A
    refine ⟨.mk r' a cols, ⟨f, fa, A.same ho ?_, hr', rfl⟩, ?_⟩
    · intro o e
      cases o <;> first | exact e | cases e
    · show Named.mk _ _ _ = Named.mk _ _ _
      rw [e]
theorem Rel.At.alike : ∀ (R : Rel) {h h' : Heap} {r : Ref} {fp : List Ref}, R.At h r fp → h.Alike h' →
    sameTree (fun R => R.At h' r fp) (mapRel forgetNode forgetTable) R
  | .table t, h, h', r, fp, H, A => by
    obtain ⟨ho, rfl⟩ := H
    obtain ⟨t', ht', e⟩ := A.table ho
    exact ⟨.table t', ⟨ht', rfl⟩, congrArg Rel.table e⟩
  | .query q, _, _, _, _, H, A => by
    obtain ⟨q', hq', e⟩ := Query.At.alike q H A
    exact ⟨.query q', hq', congrArg Rel.query e⟩
  | .aliased n, _, _, _, _, H, A => by
    obtain ⟨q', hq', e⟩ := Named.At.alike n H A
    exact ⟨.aliased q', hq', congrArg Rel.aliased e⟩
  | .join l r' t nat cr, h, h', r, fp, H, A => by
    obtain ⟨a, b, fa, fb, ho, hl, hr, rfl⟩ := H
    obtain ⟨l', hl', e1⟩ := Rel.At.alike l hl A
    obtain ⟨r'', hr', e2⟩ := Rel.At.alike r' hr A
    refine ⟨.join l' r'' t nat cr, ⟨a, b, fa, fb, A.same ho ?_, hl', hr', rfl⟩, ?_⟩
    · intro o e
      cases o <;> first | exact e | cases e
    · show Rel.join _ _ _ _ _ = Rel.join _ _ _ _ _
      rw [e1, e2]
  | .unnest as o, h, h', r, fp, H, A => by
    obtain ⟨dt, ho, rfl⟩ := H
    obtain ⟨as', dt', ho', e⟩ := A.unnest ho
    refine ⟨.unnest as' o, ⟨dt', ho', rfl⟩, ?_⟩
    show Rel.unnest _ _ = Rel.unnest _ _
    rw [e]
  | .lateral q, h, h', r, fp, H, A => by
    obtain ⟨a, fa, ho, hq, rfl⟩ := H
    obtain ⟨q', hq', e⟩ := Query.At.alike q hq A
    refine ⟨.lateral q', ⟨a, fa, A.same ho ?_, hq', rfl⟩, congrArg Rel.lateral e⟩
    intro o e
    cases o <;> first | exact e | cases e
  | .sample rel t p, h, h', r, fp, H, A => by
    obtain ⟨a, fa, ho, hq, rfl⟩ := H
    obtain ⟨q', hq', e⟩ := Rel.At.alike rel hq A
    refine ⟨.sample q' t p, ⟨a, fa, A.same ho ?_, hq', rfl⟩, ?_⟩
    · intro o e
      cases o <;> first | exact e | cases e
    · show Rel.sample _ _ _ = Rel.sample _ _ _
      rw [e]
end

/-- The object unfolds in fewer than `n` levels. -/
def Deep (h : Heap) : Nat → Ref → Prop
  | 0, _ => False
  | n + 1, r => ∃ o, h r = some o ∧ ∀ c ∈ o.kids, Deep h n c

theorem Deep.mono {h : Heap} : ∀ {n m : Nat} {r : Ref}, Deep h n r → n ≤ m → Deep h m r
  | n + 1, m + 1, r, ⟨o, ho, H⟩, l => ⟨o, ho, fun c hc => (H c hc).mono (by omega)⟩

theorem Deep.alike {h h' : Heap} (A : h.Alike h') : ∀ {n : Nat} {r : Ref}, Deep h n r → Deep h' n r
  | n + 1, r, ⟨o, ho, H⟩ => by
    obtain ⟨o', ho', hf⟩ := A.some ho
    exact ⟨o', ho', fun c hc => (H c (by rw [← RelObj.forget_kids hf]; exact hc)).alike A⟩

/-- All of `cs` unfold in fewer than `n` levels. -/
abbrev Deeps (h : Heap) (n : Nat) (cs : List Ref) : Prop := ∀ c ∈ cs, Deep h n c

theorem deep_up {h : Heap} {r : Ref} {o : RelObj} (ho : h r = some o) {n : Nat} (H : Deeps h n o.kids) : ∃ n, Deep h n r :=
  ⟨n + 1, o, ho, H⟩

theorem Deeps.append {h : Heap} {a b : List Ref} : (∃ n, Deeps h n a) → (∃ n, Deeps h n b) → ∃ n, Deeps h n (a ++ b)
  | ⟨n, hn⟩, ⟨m, hm⟩ => ⟨n + m, fun c hc => by
    rcases List.mem_append.1 hc with hc | hc
    · exact (hn c hc).mono (by omega)
    · exact (hm c hc).mono (by omega)⟩
theorem Deeps.one {h : Heap} {a : Ref} : (∃ n, Deep h n a) → ∃ n, Deeps h n [a]
  | ⟨n, hn⟩ => ⟨n, fun c hc => by rw [List.mem_singleton.1 hc]; exact hn⟩
theorem Deeps.nil {h : Heap} : ∃ n, Deeps h n [] := ⟨0, fun _ hc => by cases hc⟩

mutual
theorem Query.At.deep : ∀ (q : Query) {h : Heap} {r : Ref} {fp : List Ref}, q.At h r fp → ∃ n, Deep h n r
  | .mk b off lim ob w, h, r, fp, H => by
    obtain ⟨ws, fw, fb, hb, hw, rfl⟩ := H
    exact QBody.At.deep b hb (Named.Ats.deep w hw)
theorem QBody.At.deep : ∀ (b : QBody) {h : Heap} {r : Ref} {fb : List Ref} {off lim : Option Int} {ob : List Ord} {ws : List Ref},
    b.At h r fb off lim ob ws → (∃ n, Deeps h n ws) → ∃ n, Deep h n r
  | .select items fr wh gb hv d wins, h, r, fb, off, lim, ob, ws, H, W => by
    obtain ⟨f, dt, ho, hf⟩ := H
    obtain ⟨n, hn⟩ := Deeps.append W (Rel.AtOpt.deep fr hf)
    exact deep_up ho hn
  | .set k l r' d, h, r, fb, off, lim, ob, ws, H, W => by
    obtain ⟨a, b, dt, fa, fb', ho, hl, hr, rfl⟩ := H
    obtain ⟨n, hn⟩ := Deeps.append W (Deeps.append (Deeps.one (Query.At.deep l hl)) (Deeps.one (Query.At.deep r' hr)))
    exact deep_up ho hn
  | .table t, h, r, fb, off, lim, ob, ws, H, W => by
    obtain ⟨a, dt, ho, ht, rfl⟩ := H
    obtain ⟨n, hn⟩ := Deeps.append W (Deeps.one ⟨1, _, ht, fun _ hc => by cases hc⟩)
    exact deep_up ho hn
  | .values es, h, r, fb, off, lim, ob, ws, H, W => by
    obtain ⟨dt, ho, rfl⟩ := H
    obtain ⟨n, hn⟩ := W
    exact deep_up ho hn
theorem Rel.AtOpt.deep : ∀ (fr : Option Rel) {h : Heap} {f : Option Ref} {fp : List Ref}, Rel.AtOpt h f fp fr →
    ∃ n, Deeps h n f.toList
  | none, _, _, _, ⟨rfl, _⟩ => Deeps.nil
  | some r, h, f, fp, H => by
    obtain ⟨a, rfl, hr⟩ := H
    exact Deeps.one (Rel.At.deep r hr)
theorem Named.Ats.deep : ∀ (w : List Named) {h : Heap} {ws fp : List Ref}, Named.Ats h ws fp w → ∃ n, Deeps h n ws
  | [], _, _, _, ⟨rfl, _⟩ => Deeps.nil
  | n :: ns, h, ws, fp, H => by
    obtain ⟨a, as, fa, fas, rfl, hn, hns, rfl⟩ := H
    exact Deeps.append (Deeps.one (Named.At.deep n hn)) (Named.Ats.deep ns hns)
theorem Named.At.deep : ∀ (n : Named) {h : Heap} {r : Ref} {fp : List Ref}, n.At h r fp → ∃ n, Deep h n r
  | .mk rel a cols, h, r, fp, H => by
    obtain ⟨f, fa, ho, hr, rfl⟩ := H
    obtain ⟨n, hn⟩ := Deeps.one (Rel.At.deep rel hr)
    exact deep_up ho hn
theorem Rel.At.deep : ∀ (R : Rel) {h : Heap} {r : Ref} {fp : List Ref}, R.At h r fp → ∃ n, Deep h n r
  | .table t, h, r, fp, H => ⟨1, _, H.1, fun _ hc => by cases hc⟩
  | .query q, _, _, _, H => Query.At.deep q H
  | .aliased n, _, _, _, H => Named.At.deep n H
  | .join l r' t nat cr, h, r, fp, H => by
    obtain ⟨a, b, fa, fb, ho, hl, hr, rfl⟩ := H
    obtain ⟨n, hn⟩ := Deeps.append (Deeps.one (Rel.At.deep l hl)) (Deeps.one (Rel.At.deep r' hr))
    exact deep_up ho hn
  | .unnest as o, h, r, fp, H => by
    obtain ⟨dt, ho, rfl⟩ := H
    exact ⟨1, _, ho, fun _ hc => by cases hc⟩
  | .lateral q, h, r, fp, H => by
    obtain ⟨a, fa, ho, hq, rfl⟩ := H
    obtain ⟨n, hn⟩ := Deeps.one (Query.At.deep q hq)
    exact deep_up ho hn
  | .sample rel t p, h, r, fp, H => by
    obtain ⟨a, fa, ho, hq, rfl⟩ := H
    obtain ⟨n, hn⟩ := Deeps.one (Rel.At.deep rel hq)
    exact deep_up ho hn
end

/-- The computation answers. -/
def Act.Ends {α : Type} (h : Heap) (x : Act α) : Prop := ∃ o h', x h = some (o, h')

theorem Act.Ends.bind {α β : Type} {h : Heap} {x : Act α} {f : α → Act β} (hx : x.Ends h)
    (hf : ∀ a h', x h = some (.ok a, h') → (f a).Ends h') : (x >>= f).Ends h := by
  obtain ⟨o, h', e⟩ := hx
  cases o with
  | error er => exact ⟨_, _, Act.bind_err e⟩
  | ok a =>
    obtain ⟨o, h'', e'⟩ := hf a h' e
    exact ⟨o, h'', (Act.bind_some e).trans e'⟩
theorem Act.Ends.pure {α : Type} {h : Heap} {a : α} : (Pure.pure a : Act α).Ends h := ⟨_, _, rfl⟩
theorem Act.Ends.lift {α : Type} {h : Heap} {x : Except Err α} : (Act.lift x).Ends h := ⟨_, _, rfl⟩
theorem Act.Ends.get {h : Heap} {r : Ref} : (Act.get r).Ends h := ⟨_, _, rfl⟩
theorem Act.Ends.put {h : Heap} {r : Ref} {o : RelObj} : (Act.put r o).Ends h := ⟨_, _, rfl⟩
theorem Act.Ends.prune {h : Heap} {r : Ref} {s : Schema} : (pruneAt r s).Ends h := .bind .get fun _ _ _ => .pure
theorem Act.lift_same {α : Type} {x : Except Err α} {h h' : Heap} {o : Except Err α} (e : Act.lift x h = some (o, h')) : h' = h := by
  cases e; rfl

theorem keyAt_ends : ∀ (n : Nat) (r : Ref) (h : Heap), Deep h n r → (keyAt n r).Ends h
  | n + 1, r, h, ⟨o, ho, H⟩ => by
    refine .bind .get fun o' h' e => ?_
    obtain ⟨e1, rfl⟩ := Act.get_inv e
    rw [ho] at e1
    cases e1
    cases o with
    | aliased r a cols => exact .bind (keyAt_ends n r h' (H r (by simp [RelObj.kids]))) fun _ _ _ => .pure
    | join a b t nat cr =>
      refine .bind (keyAt_ends n a h' (H a (by simp [RelObj.kids]))) fun _ h1 e => .bind (keyAt_ends n b h1 ?_) fun _ _ _ => .pure
      exact (H b (by simp [RelObj.kids])).alike (keyAt_safe (fun _ => True) n a h' _ _ e).alike
    | sample r t p => exact .bind (keyAt_ends n r h' (H r (by simp [RelObj.kids]))) fun _ _ _ => .pure
    | _ => exact .pure

theorem withLoop_ends {go : Schema → Ref → Act Schema} {h0 : Heap} : ∀ (ws : List Ref) (s : Schema) (h : Heap),
    (∀ c ∈ ws, ∀ s h', h0.Alike h' → (go s c).Ends h' ∧ (go s c).Safe (fun _ => True) h') → h0.Alike h → (withLoop go ws s).Ends h
  | [], _, _, _, _ => .pure
  | w :: ws, s, h, G, A => by
    obtain ⟨g1, g2⟩ := G w (List.mem_cons_self ..) s h A
    refine .bind g1 fun t h1 e => .bind .lift fun m h2 e' => ?_
    cases Act.lift_same e'
    exact withLoop_ends ws m h1 (fun c hc => G c (List.mem_cons_of_mem _ hc)) (A.trans (g2 _ _ e).alike)

theorem resolveObj_ends {go : Schema → Ref → Act Schema} {h : Heap} (n : Nat) (s : Schema) (r : Ref) (o : RelObj)
    (G : ∀ c ∈ o.kids, ∀ s h', h.Alike h' → (go s c).Ends h' ∧ (go s c).Safe (fun _ => True) h' ∧ (keyAt n c).Ends h') :
    (resolveObj n go s r o).Ends h := by
  have P : ∀ {r s h1 o h2}, pruneAt r s h1 = some (o, h2) → h1.Alike h2 :=
    fun e => (Act.Safe.prune (W := fun _ => True) _ _ e).alike
  cases o with
  | table t => exact .bind .put fun _ _ _ => .pure
  | select items f wh gb hv d wins off lim ob w dt =>
    cases f with
    | none => exact .bind .lift fun _ _ _ => .pure
    | some f =>
      have Gw : ∀ c ∈ w, ∀ s h', h.Alike h' → (go s c).Ends h' ∧ (go s c).Safe (fun _ => True) h' := fun c hc s h' A =>
        ⟨(G c (List.mem_append_left _ hc) s h' A).1, (G c (List.mem_append_left _ hc) s h' A).2.1⟩
      refine .bind (withLoop_ends w _ h Gw (.refl h)) fun ws h1 e1 => .bind .lift fun ex h2 e2 => .bind .prune fun ex' h3 e3 => ?_
      cases Act.lift_same e2
      have A1 := (withLoop_safe w _ h (fun c hc s h' A => (Gw c hc s h' A).2) (.refl h) _ _ e1).alike
      obtain ⟨g1, g2, _⟩ := G f (List.mem_append_right _ (by simp)) ex' h3 (A1.trans (P e3))
      exact .bind g1 fun sch h4 e4 => .bind .get fun o' h5 e5 => .bind .lift fun items' h6 e6 => .bind .lift fun ts h7 e7 =>
        .bind .put fun _ _ _ => .bind .lift fun _ _ _ => .pure
  | set k a b d off lim ob w dt =>
    refine .bind .prune fun s1 h1 e1 => ?_
    obtain ⟨g1, g2, _⟩ := G a (by simp [RelObj.kids]) s1 h1 (P e1)
    refine .bind g1 fun l h2 e2 => .bind .prune fun s2 h3 e3 => ?_
    obtain ⟨g3, g4, _⟩ := G b (by simp [RelObj.kids]) s2 h3 (((P e1).trans (g2 _ _ e2).alike).trans (P e3))
    exact .bind g3 fun _ _ _ => .pure
  | tableQ t off lim ob w dt =>
    have Gw : ∀ c ∈ w, ∀ s h', h.Alike h' → (go s c).Ends h' ∧ (go s c).Safe (fun _ => True) h' := fun c hc s h' A =>
      ⟨(G c (List.mem_append_left _ hc) s h' A).1, (G c (List.mem_append_left _ hc) s h' A).2.1⟩
    refine .bind (withLoop_ends w _ h Gw (.refl h)) fun ws h1 e1 => ?_
    have A1 := (withLoop_safe w _ h (fun c hc s h' A => (Gw c hc s h' A).2) (.refl h) _ _ e1).alike
    obtain ⟨g1, _, _⟩ := G t (List.mem_append_right _ (by simp)) ws h1 A1
    exact .bind g1 fun sch h2 e2 => .bind .get fun o' h3 e3 => .bind .put fun _ _ _ => .pure
  | values es off lim ob w dt => exact .lift
  | aliased f a cols =>
    refine .bind .prune fun s1 h1 e1 => ?_
    obtain ⟨g1, g2, _⟩ := G f (by simp [RelObj.kids]) s1 h1 (P e1)
    refine .bind g1 fun l h2 e2 => ?_
    obtain ⟨_, _, g3⟩ := G f (by simp [RelObj.kids]) s1 h2 ((P e1).trans (g2 _ _ e2).alike)
    exact .bind g3 fun _ _ _ => .bind .lift fun _ _ _ => .pure
  | join a b t nat cr =>
    refine .bind .prune fun s1 h1 e1 => ?_
    obtain ⟨g1, g2, _⟩ := G a (by simp [RelObj.kids]) s1 h1 (P e1)
    refine .bind g1 fun l h2 e2 => .bind .lift fun ex h' e' => .bind .prune fun s2 h3 e3 => ?_
    cases Act.lift_same e'
    obtain ⟨g3, g4, _⟩ := G b (by simp [RelObj.kids]) s2 h3 (((P e1).trans (g2 _ _ e2).alike).trans (P e3))
    exact .bind g3 fun _ _ _ => .lift
  | unnest as o dt => exact .bind .lift fun _ _ _ => .bind .lift fun _ _ _ => .bind .put fun _ _ _ => .pure
  | lateral q => exact (G q (by simp [RelObj.kids]) _ h (.refl h)).1
  | sample f t p => exact (G f (by simp [RelObj.kids]) _ h (.refl h)).1

theorem resolveAt_ends : ∀ (n : Nat) (s : Schema) (r : Ref) (h : Heap), Deep h n r → (resolveAt n s r).Ends h
  | n + 1, s, r, h, ⟨o, ho, H⟩ => by
    refine .bind .get fun o' h' e => ?_
    obtain ⟨e1, rfl⟩ := Act.get_inv e
    rw [ho] at e1
    cases e1
    refine resolveObj_ends n s r o fun c hc s' h2 A => ⟨resolveAt_ends n s' c h2 ((H c hc).alike A), ?_, keyAt_ends n c h2 ((H c hc).alike A)⟩
    exact resolveAt_safe n s' c fun _ _ => trivial

end Treeno
