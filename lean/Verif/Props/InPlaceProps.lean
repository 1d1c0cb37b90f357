import Verif.Lemmas.HeapShared
import Verif.Lemmas.Krfl
/-!
# C73, C74: resolving objects in place

`resolve` assigns to attributes of the objects it meets.  The theorems hold for every heap of objects, however they refer to
each other, unless something is said about sharing.
-/
set_option autoImplicit false
namespace Treeno.Props
open Spec

/-! ## C73: what resolving does to objects -/

/-- **C73.** The call has one outcome. -/
theorem C73_deterministic {h : Heap} {s : Schema} {r : Ref} {o o' : Except Err Schema} {h1 h2 : Heap} (H : Resolves h s r o h1)
    (H' : Resolves h s r o' h2) : o = o' ∧ h1 = h2 := by
  obtain ⟨n, e⟩ := H
  obtain ⟨m, e'⟩ := H'
  have a := resolveAt_le s r (Nat.le_max_left n m) _ _ e
  have b := resolveAt_le s r (Nat.le_max_right n m) _ _ e'
  rw [a] at b
  cases b
  exact ⟨rfl, rfl⟩

/-- **C73.** Objects that form a finite tree, some of them perhaps used at several places: the call ends. -/
theorem C73_terminates (R : Rel) {h : Heap} {s : Schema} {r : Ref} {fp : List Ref} (H : R.At h r fp) :
    ∃ o h', Resolves h s r o h' := by
  obtain ⟨n, D⟩ := Rel.At.deep R H
  obtain ⟨o, h', e⟩ := resolveAt_ends n s r h D
  exact ⟨o, h', n, e⟩

/-- **C73.** Whether the call returns or raises, objects keep their class and their attributes, but for types and
remembered columns. -/
theorem C73_attributes {h : Heap} {s : Schema} {r : Ref} {o : Except Err Schema} {h' : Heap} (H : Resolves h s r o h') : h.Alike h' :=
  let ⟨_, e⟩ := H
  resolveAt_alike e

/-- **C73.** Whether the call returns or raises, every relation, anywhere, prints as before. -/
theorem C73_text (R : Rel) {h : Heap} {s : Schema} {r a : Ref} {o : Except Err Schema} {h' : Heap} {fp : List Ref}
    (H : Resolves h s r o h') (hR : R.At h a fp) : ∃ R', Rel.At h' a fp R' ∧ ∀ opts, R'.sql opts = R.sql opts := by
  obtain ⟨R', h1, e⟩ := Rel.At.alike R hR (C73_attributes H)
  exact ⟨R', h1, fun opts => by rw [← fg_Rel R', e, fg_Rel R]⟩

/-- **C73.** The same for queries printed as statements. -/
theorem C73_query_text (q : Query) {h : Heap} {s : Schema} {r a : Ref} {o : Except Err Schema} {h' : Heap} {fp : List Ref}
    (H : Resolves h s r o h') (hq : q.At h a fp) : ∃ q', Query.At h' a fp q' ∧ ∀ opts, q'.sql opts = q.sql opts := by
  obtain ⟨q', h1, e⟩ := Query.At.alike q hq (C73_attributes H)
  exact ⟨q', h1, fun opts => by rw [← fg_Query q', e, fg_Query q]⟩

/-- **C73.** ... and has the meaning it had. -/
theorem C73_query_meaning (M : Spec.Model) (q : Query) {h : Heap} {s : Schema} {r a : Ref} {o : Except Err Schema} {h' : Heap} {fp : List Ref}
    (H : Resolves h s r o h') (hq : q.At h a fp) : ∃ q', Query.At h' a fp q' ∧ q'.mean M = q.mean M := by
  obtain ⟨q', h1, e⟩ := Query.At.alike q hq (C73_attributes H)
  refine ⟨q', h1, ?_⟩
  rw [← mm_Query (tg := forgetTable) (forgetNode_mean M) (fun _ => rfl) q', e,
    mm_Query (tg := forgetTable) (forgetNode_mean M) (fun _ => rfl) q]

/-- **C73.** Objects that are not used by the relation are left alone. -/
theorem C73_others {h : Heap} {s : Schema} {r a : Ref} {o : Except Err Schema} {h' : Heap} (H : Resolves h s r o h')
    (ha : ¬ UsesObj h r a) : h' a = h a := by
  obtain ⟨n, e⟩ := H
  exact (resolveAt_safe n s r (W := UsesObj h r) (fun _ u => u) _ _ e).only a ha

/-- **C73.** What happens depends on the objects used by the relation and on nothing else. -/
theorem C73_local {h k : Heap} {s : Schema} {r : Ref} {o : Except Err Schema} {h' : Heap} (H : Resolves h s r o h')
    (hk : ∀ a, UsesObj h r a → k a = h a) : ∃ k', Resolves k s r o k' ∧ ∀ a, UsesObj h r a → k' a = h' a := by
  obtain ⟨n, e⟩ := H
  obtain ⟨k', e', S⟩ := resolveAt_local n s r (W := UsesObj h r) (.here r) h k o h' ⟨hk, fun _ _ u ho c hc => u.kid ho hc⟩ e
  exact ⟨k', ⟨n, e'⟩, S.same⟩

/-- **C73.** Relations that have no object in common can be resolved in either order: the second has the outcome it would
have had first. -/
theorem C73_order {h : Heap} {s s' : Schema} {r r' : Ref} {o o' : Except Err Schema} {h1 h2 : Heap} (H : Resolves h s r o h1)
    (H' : Resolves h s' r' o' h2) (d : ∀ a, UsesObj h r a → ¬ UsesObj h r' a) :
    ∃ k, Resolves h1 s' r' o' k ∧ ∀ a, UsesObj h r' a → k a = h2 a :=
  C73_local H' fun a ha => C73_others H fun u => d a u ha

/-- **C73.** When no object is used at two places, the call answers what it answers for the tree, leaves the resolved
tree, and raises what it raises for the tree.  Partial: for shared tables this is false (C73_shared_table_false). -/
theorem C73_unshared_partial (R : Rel) {h : Heap} {s : Schema} {r : Ref} {fp : List Ref} (H : R.At h r fp) (nd : fp.Nodup) :
    (∀ p, R.resolve s = .ok p → ∃ h', Resolves h s r (.ok p.2) h' ∧ Rel.At h' r fp p.1) ∧
    (∀ e, R.resolve s = .error e → ∃ h', Resolves h s r (.error e) h') := by
  obtain ⟨n, D⟩ := Rel.At.deep R H
  have K := Rel.At.does R (n := n) (s := s) H nd D
  refine ⟨fun p hp => ?_, fun e he => ?_⟩
  · rw [hp] at K
    obtain ⟨h', e, g⟩ := K
    exact ⟨h', ⟨n, e⟩, g.1⟩
  · rw [he] at K
    obtain ⟨h', e⟩ := K
    exact ⟨h', ⟨n, e⟩⟩

/-- **C73.** When no object is used at two places, resolving again answers the same and changes no tree. -/
theorem C73_twice (R : Rel) {h : Heap} {s t : Schema} {r : Ref} {fp : List Ref} {h' : Heap} (H : R.At h r fp) (nd : fp.Nodup)
    (hr : Resolves h s r (.ok t) h') : ∃ R' h'', Rel.At h' r fp R' ∧ Resolves h' s r (.ok t) h'' ∧ Rel.At h'' r fp R' := by
  obtain ⟨ok, er⟩ := C73_unshared_partial R H nd (s := s)
  cases hR : R.resolve s with
  | error e =>
    obtain ⟨k, hk⟩ := er e hR
    cases (C73_deterministic hr hk).1
  | ok p =>
    obtain ⟨k, hk, hp⟩ := ok p hR
    obtain ⟨e, rfl⟩ := C73_deterministic hr hk
    cases e
    obtain ⟨h'', h1, h2⟩ := (C73_unshared_partial p.1 hp nd (s := s)).1 p (C58_relation s R p hR).1
    exact ⟨p.1, h'', hp, h1, h2⟩

/-- **C73.** With any sharing: the call answers what it answers for the tree and leaves the resolved tree, exactly if each
object has one resolution, that is if types can be given to the objects so that they stand for the resolved tree. -/
theorem C73_shared_exact (R : Rel) {h : Heap} {s : Schema} {r : Ref} {fp : List Ref} {p : Rel × Schema} (H : R.At h r fp)
    (hp : R.resolve s = .ok p) :
    (∃ h', Resolves h s r (.ok p.2) h' ∧ p.1.At h' r fp) ↔ ∃ k, h.Alike k ∧ p.1.At k r fp := by
  refine ⟨fun ⟨h', h1, h2⟩ => ⟨h', C73_attributes h1, h2⟩, fun ⟨k, A, hk⟩ => ?_⟩
  obtain ⟨n, D⟩ := Rel.At.deep R H
  obtain ⟨h', e, S⟩ := Rel.At.shared R H hk A hp ⟨.refl h, fun _ => .inl rfl⟩ D
  exact ⟨h', ⟨n, e⟩, Rel.At.congr p.1 hk S.done⟩

/-- **C73.** Then resolving again answers the same and leaves the same tree. -/
theorem C73_shared_twice (R : Rel) {h' : Heap} {s : Schema} {r : Ref} {fp : List Ref} {p : Rel × Schema}
    (hp : R.resolve s = .ok p) (hp' : p.1.At h' r fp) : ∃ h'', Resolves h' s r (.ok p.2) h'' ∧ p.1.At h'' r fp :=
  (C73_shared_exact p.1 hp' (C58_relation s R p hp).1).2 ⟨h', .refl h', hp'⟩

/-- The objects of a program, numbered. -/
def objs (os : List RelObj) : Heap := fun a => os[a]?

/-- `t = Table("t")` is used by the query `WITH t AS (SELECT 1 AS x) SELECT x FROM t` and next to it:
`Join(AliasedRelation(query, "a"), t)`.  Object 0 is the join, 3 the table. -/
def sharedTable : List RelObj :=
  [.join 1 3 .cross false none,
   .aliased 2 (c% "a") [],
   .select [.field (c% "x") none .unknown] (some 3) none none none false [] none none [] [4] .unknown,
   .table ⟨c% "t", none, none, []⟩,
   .aliased 5 (c% "t") [],
   .select [.alias (.lit (some (.int 1)) (.simple .integer)) (c% "x")] none none none none false [] none none [] [] (.simple .integer)]
/-- The same with a second table object of that name. -/
def ownTable : List RelObj := sharedTable.set 0 (.join 1 6 .cross false none) ++ [.table ⟨c% "t", none, none, []⟩]

/-- The tree both stand for. -/
def crossT : Rel :=
  .join (.aliased (.mk (.query (.mk (.select [.field (c% "x") none .unknown] (some (.table ⟨c% "t", none, none, []⟩)) none none none false [])
      none none [] [.mk (.query (.mk (.select [.alias (.lit (some (.int 1)) (.simple .integer)) (c% "x")] none none none none false []) none none [] [])) (c% "t") []]))
    (c% "a") [])) (.table ⟨c% "t", none, none, []⟩) .cross false none

theorem shared_at : crossT.At (objs sharedTable) 0 [0, 1, 2, 4, 5, 3, 3] :=
  ⟨1, 3, [1, 2, 4, 5, 3], [3], rfl, ⟨2, [2, 4, 5, 3], rfl, ⟨[4], [4, 5], [3], ⟨some 3, _, rfl, 3, rfl, rfl, rfl⟩,
    ⟨4, [], [4, 5], [], rfl, ⟨5, [5], rfl, ⟨[], [], [], ⟨none, _, rfl, rfl, rfl⟩, ⟨rfl, rfl⟩, rfl⟩, rfl⟩, ⟨rfl, rfl⟩, rfl⟩, rfl⟩, rfl⟩,
    ⟨rfl, rfl⟩, rfl⟩
theorem own_at : crossT.At (objs ownTable) 0 [0, 1, 2, 4, 5, 3, 6] :=
  ⟨1, 6, [1, 2, 4, 5, 3], [6], rfl, ⟨2, [2, 4, 5, 3], rfl, ⟨[4], [4, 5], [3], ⟨some 3, _, rfl, 3, rfl, rfl, rfl⟩,
    ⟨4, [], [4, 5], [], rfl, ⟨5, [5], rfl, ⟨[], [], [], ⟨none, _, rfl, rfl, rfl⟩, ⟨rfl, rfl⟩, rfl⟩, rfl⟩, ⟨rfl, rfl⟩, rfl⟩, rfl⟩, rfl⟩,
    ⟨rfl, rfl⟩, rfl⟩

/-- With its own table object the join has the column of `a`, as for the tree. -/
theorem C73_own_reached : ∃ p h', crossT.resolve .empty = .ok p ∧ p.2.fields.length = 1 ∧ Resolves (objs ownTable) .empty 0 (.ok p.2) h' ∧
    Rel.At h' 0 [0, 1, 2, 4, 5, 3, 6] p.1 := by
  obtain ⟨p, hp, hl⟩ : ∃ p, crossT.resolve .empty = .ok p ∧ p.2.fields.length = 1 := ⟨_, rfl, rfl⟩
  obtain ⟨h', h1, h2⟩ := (C73_unshared_partial crossT own_at (by decide)).1 p hp
  exact ⟨p, h', hp, hl, h1, h2⟩

/-- **C73.** Without the condition on sharing the answer may differ from that for the tree: a shared table remembers the
columns it was given inside the subquery, and the join has them as well. -/
theorem C73_shared_table_false : ∃ h r fp p t h', Rel.At h r fp crossT ∧ crossT.resolve .empty = .ok p ∧
    Resolves h .empty r (.ok t) h' ∧ p.2.fields.map (·.name) = [some (c% "x")] ∧
    t.fields.map (·.name) = [some (c% "x"), some (c% "x")] := by
  obtain ⟨p, hp, hl⟩ : ∃ p, crossT.resolve .empty = .ok p ∧ p.2.fields.map (·.name) = [some (c% "x")] := ⟨_, rfl, rfl⟩
  obtain ⟨t, h', ht, htl⟩ : ∃ t h', resolveAt 6 .empty 0 (objs sharedTable) = some (.ok t, h') ∧
      t.fields.map (·.name) = [some (c% "x"), some (c% "x")] := ⟨_, _, rfl, rfl⟩
  exact ⟨_, 0, _, p, t, h', shared_at, hp, ⟨6, ht⟩, hl, htl⟩

/-- `t = Table("t")`; `Join(AliasedRelation(t, "a"), AliasedRelation(t, "b"))`, with `t` at both places. -/
def selfJoin : List RelObj := [.join 1 2 .cross false none, .aliased 3 (c% "a") [], .aliased 3 (c% "b") [], .table ⟨c% "t", none, none, []⟩]
/-- The same once `t` is known to have the column `x`. -/
def selfJoinX (f : Col) : List RelObj := [.join 1 2 .cross false none, .aliased 3 (c% "a") [], .aliased 3 (c% "b") [], .table ⟨c% "t", none, none, [f]⟩]

/-- Joining a table with itself, where a common table expression `t` with a column `x` is in scope: both places get the
column, as for the tree. -/
theorem C73_shared_reached : ∃ R s p h', Rel.At (objs selfJoin) 0 [0, 1, 3, 2, 3] R ∧ R.resolve s = .ok p ∧
    p.2.fields.map (·.name) = [some (c% "x"), some (c% "x")] ∧ Resolves (objs selfJoin) s 0 (.ok p.2) h' ∧ p.1.At h' 0 [0, 1, 3, 2, 3] := by
  let f : Col := ⟨some (c% "x"), .table (c% "t") none none, .simple .integer⟩
  let R : Rel := .join (.aliased (.mk (tab (c% "t")) (c% "a") [])) (.aliased (.mk (tab (c% "t")) (c% "b") [])) .cross false none
  have H : R.At (objs selfJoin) 0 [0, 1, 3, 2, 3] :=
    ⟨1, 2, [1, 3], [2, 3], rfl, ⟨3, [3], rfl, ⟨rfl, rfl⟩, rfl⟩, ⟨3, [3], rfl, ⟨rfl, rfl⟩, rfl⟩, rfl⟩
  obtain ⟨p, hp, hn, hk⟩ : ∃ p, R.resolve ⟨[f], [c% "t"]⟩ = .ok p ∧ p.2.fields.map (·.name) = [some (c% "x"), some (c% "x")] ∧
      p.1.At (objs (selfJoinX f)) 0 [0, 1, 3, 2, 3] :=
    ⟨_, rfl, rfl, ⟨1, 2, [1, 3], [2, 3], rfl, ⟨3, [3], rfl, ⟨rfl, rfl⟩, rfl⟩, ⟨3, [3], rfl, ⟨rfl, rfl⟩, rfl⟩, rfl⟩⟩
  obtain ⟨h', h1, h2⟩ := (C73_shared_exact R H hp).2 ⟨objs (selfJoinX f), fun a => by rcases a with _ | _ | _ | _ | a <;> rfl, hk⟩
  exact ⟨R, _, p, h', H, hp, hn, h1, h2⟩

/-- **C73.** A call that raises may have changed objects before, here in a part of the relation that itself raises:
`(SELECT x FROM (SELECT 1 AS x) AS s UNION ALL VALUES 1) AS u` raises TypeError at VALUES, when the SELECT has got its types. -/
theorem C73_not_undone : ∃ h h', Resolves h .empty 0 (.error .typeError) h' ∧ (h 2).bind RelObj.dataType = some .unknown ∧
    (h' 2).bind RelObj.dataType = some (.simple .integer) :=
  ⟨objs [.aliased 1 (c% "u") [],
    .set .union 2 5 false none none [] [] .unknown,
    .select [.field (c% "x") none .unknown] (some 3) none none none false [] none none [] [] .unknown,
    .aliased 4 (c% "s") [],
    .select [.alias (.lit (some (.int 1)) (.simple .integer)) (c% "x")] none none none none false [] none none [] [] (.simple .integer),
    .values [.lit (some (.int 1)) (.simple .integer)] none none [] [] (.simple .integer)], _, ⟨7, rfl⟩, rfl, rfl⟩

/-! ## C74: `data_type` of a resolved query -/

theorem cols_types : ∀ (es : List Expr) (cs : List Col), selectCols es = .ok cs → Expr.checks es = .ok (cs.map (·.ty))
  | [], cs, h => by cases h; rfl
  | e :: es, cs, h => by
    obtain ⟨t, ht, h⟩ := bind_ok h
    obtain ⟨cs', hcs, h⟩ := bind_ok h
    cases h
    exact bind_of ht (bind_of (cols_types es cs' hcs) rfl)

/-- **C74.** `data_type` of a SELECT with FROM is, once it is resolved, the type of the only column or the row of the types
of the columns answered.  Partial: set operations and TABLE do not have it (C74_set_stale_false, C74_table). -/
theorem C74_select_partial {h : Heap} {s t : Schema} {r f : Ref} {h' : Heap} {items wh gb hv d wins off lim ob w dt}
    (ho : h r = some (.select items (some f) wh gb hv d wins off lim ob w dt)) (H : Resolves h s r (.ok t) h') :
    (h' r).bind RelObj.dataType = some (match t.fields.map (·.ty) with | [t] => t | ts => .row ts) := by
  obtain ⟨n, e⟩ := H
  cases n with
  | zero => cases e
  | succ n =>
    have e := (Act.bind_some (Act.get_ok ho)).symm.trans e
    rcases Act.bind_inv e with ⟨_, _, e⟩ | ⟨ws, h1, e1, e⟩
    · cases e
    rcases Act.bind_inv e with ⟨_, _, e⟩ | ⟨ex, h2, e2, e⟩
    · cases e
    rcases Act.bind_inv e with ⟨_, _, e⟩ | ⟨ex', h3, e3, e⟩
    · cases e
    rcases Act.bind_inv e with ⟨_, _, e⟩ | ⟨sch, h4, e4, e⟩
    · cases e
    rcases Act.bind_inv e with ⟨_, _, e⟩ | ⟨o, h5, e5, e⟩
    · cases e
    rcases Act.bind_inv e with ⟨_, _, e⟩ | ⟨is, h6, e6, e⟩
    · cases e
    rcases Act.bind_inv e with ⟨_, _, e⟩ | ⟨ts, h7, e7, e⟩
    · cases e
    rcases Act.bind_inv e with ⟨_, _, e⟩ | ⟨_, h8, e8, e⟩
    · cases e
    rcases Act.bind_inv e with ⟨_, _, e⟩ | ⟨cs, h9, e9, eL⟩
    · cases e
    obtain ⟨ho5, rfl⟩ := Act.get_inv e5
    have e2' := Act.lift_same e2
    subst e2'
    have A : h.Alike h5 := ((withLoop_alike e1).trans (Act.same (W := fun _ => True) .prune e3)).trans (resolveAt_alike e4)
    obtain ⟨items', dt', ho', _⟩ := A.select ho
    rw [ho5] at ho'
    cases ho'
    cases e8
    have e10 := Act.lift_same e9
    have hc : selectCols is = .ok cs := (Prod.mk.inj (Option.some.inj e9)).1
    have ht : Expr.checks is = .ok ts := (Prod.mk.inj (Option.some.inj e7)).1
    rw [cols_types is cs hc] at ht
    cases ht
    cases eL
    subst e10
    rw [put_same]
    show some (selectType _) = _
    unfold selectType
    rfl

/-- **C74.** A set operation keeps the `data_type` it was built with, whatever is resolved. -/
theorem C74_set_never {h : Heap} {s : Schema} {r a : Ref} {o : Except Err Schema} {h' : Heap} {k l r' d off lim ob w dt}
    (ho : h a = some (.set k l r' d off lim ob w dt)) (H : Resolves h s r o h') : (h' a).bind RelObj.dataType = some dt := by
  rw [(C73_attributes H).same ho fun o' ho' => by cases o' <;> first | (cases ho'; done) | exact ho']
  rfl

/-- `SELECT x FROM (SELECT 1 AS x) AS s UNION DISTINCT SELECT x FROM (SELECT 1 AS x) AS s`, built from unresolved parts. -/
def unionX : List RelObj :=
  [.set .union 1 4 true none none [] [] .unknown,
   .select [.field (c% "x") none .unknown] (some 2) none none none false [] none none [] [] .unknown,
   .aliased 3 (c% "s") [],
   .select [.alias (.lit (some (.int 1)) (.simple .integer)) (c% "x")] none none none none false [] none none [] [] (.simple .integer),
   .select [.field (c% "x") none .unknown] (some 5) none none none false [] none none [] [] .unknown,
   .aliased 6 (c% "s") [],
   .select [.alias (.lit (some (.int 1)) (.simple .integer)) (c% "x")] none none none none false [] none none [] [] (.simple .integer)]

/-- **C74.** So the `data_type` of a set operation may say nothing although the types of its columns, and of both its
queries, are known: it is not what the constructor computes from them. -/
theorem C74_set_stale_false : ∃ t h' l r, Resolves (objs unionX) .empty 0 (.ok t) h' ∧ t.fields.map (·.ty) = [.simple .integer] ∧
    (h' 1).bind RelObj.dataType = some l ∧ (h' 4).bind RelObj.dataType = some r ∧ setType l r = .ok (.simple .integer) ∧
    (h' 0).bind RelObj.dataType = some .unknown := by
  obtain ⟨t, h', e, h1, h2, h3⟩ : ∃ t h', resolveAt 6 .empty 0 (objs unionX) = some (.ok t, h') ∧ t.fields.map (·.ty) = [.simple .integer] ∧
      (h' 1).bind RelObj.dataType = some (.simple .integer) ∧ (h' 4).bind RelObj.dataType = some (.simple .integer) := ⟨_, _, rfl, rfl, rfl, rfl⟩
  exact ⟨t, h', _, _, ⟨6, e⟩, h1, h2, h3, rfl, C74_set_never rfl ⟨6, e⟩⟩

/-- The SELECT on the left of that union, before and after. -/
theorem C74_select_reached : ∃ t h', Resolves (objs unionX) .empty 1 (.ok t) h' ∧ (objs unionX 1).bind RelObj.dataType = some .unknown ∧
    (h' 1).bind RelObj.dataType = some (.simple .integer) := by
  obtain ⟨t, h', e, h1⟩ : ∃ t h', resolveAt 6 .empty 1 (objs unionX) = some (.ok t, h') ∧ t.fields.map (·.ty) = [.simple .integer] :=
    ⟨_, _, rfl, rfl⟩
  refine ⟨t, h', ⟨6, e⟩, rfl, ?_⟩
  rw [C74_select_partial rfl ⟨6, e⟩, h1]

/-- **C74.** `data_type` of UNNEST is, once it is resolved, the row of the types of the columns answered. -/
theorem C74_unnest {h : Heap} {s t : Schema} {r : Ref} {h' : Heap} {as o dt} (ho : h r = some (.unnest as o dt))
    (H : Resolves h s r (.ok t) h') : ∃ as', h' r = some (.unnest as' o (.row (t.fields.map (·.ty)))) := by
  obtain ⟨n, e⟩ := H
  cases n with
  | zero => cases e
  | succ n =>
    have e := (Act.bind_some (Act.get_ok ho)).symm.trans e
    rcases Act.bind_inv e with ⟨_, _, e⟩ | ⟨as', h1, e1, e⟩
    · cases e
    rcases Act.bind_inv e with ⟨_, _, e⟩ | ⟨ts, h2, e2, e⟩
    · cases e
    rcases Act.bind_inv e with ⟨_, _, e⟩ | ⟨_, h3, e3, e⟩
    · cases e
    cases e3
    cases e
    refine ⟨as', ?_⟩
    rw [put_same]
    show some (RelObj.unnest as' o (.row (ts.map elemType))) = _
    rw [List.map_map]
    rfl

/-- `UNNEST(ARRAY[1])` -/
theorem C74_unnest_reached : ∃ t h' as', Resolves (objs [.unnest [.array [.lit (some (.int 1)) (.simple .integer)]] false .unknown]) .empty 0 (.ok t) h' ∧
    h' 0 = some (.unnest as' false (.row [.simple .integer])) :=
  ⟨_, _, _, ⟨3, rfl⟩, rfl⟩

/-- **C74.** A SELECT without FROM is left alone. -/
theorem C74_no_from {h : Heap} {s : Schema} {r : Ref} {o : Except Err Schema} {h' : Heap} {items wh gb hv d wins off lim ob w dt}
    (ho : h r = some (.select items none wh gb hv d wins off lim ob w dt)) (H : Resolves h s r o h') : h' = h := by
  obtain ⟨n, e⟩ := H
  cases n with
  | zero => cases e
  | succ n =>
    have e := (Act.bind_some (Act.get_ok ho)).symm.trans e
    rcases Act.bind_inv e with ⟨_, e1, _⟩ | ⟨cs, h1, e1, e⟩
    · exact Act.lift_same e1
    · cases e
      exact Act.lift_same e1

/-- **C74.** `data_type` of `TABLE t` is UNKNOWN once it is resolved, even if the columns of `t` are known. -/
theorem C74_table {h : Heap} {s t : Schema} {r a : Ref} {h' : Heap} {off lim ob w dt}
    (ho : h r = some (.tableQ a off lim ob w dt)) (H : Resolves h s r (.ok t) h') : (h' r).bind RelObj.dataType = some .unknown := by
  obtain ⟨n, e⟩ := H
  cases n with
  | zero => cases e
  | succ n =>
    have e := (Act.bind_some (Act.get_ok ho)).symm.trans e
    rcases Act.bind_inv e with ⟨_, _, e⟩ | ⟨ws, h1, e1, e⟩
    · cases e
    rcases Act.bind_inv e with ⟨_, _, e⟩ | ⟨sch, h2, e2, e⟩
    · cases e
    rcases Act.bind_inv e with ⟨_, _, e⟩ | ⟨o, h3, e3, e⟩
    · cases e
    rcases Act.bind_inv e with ⟨_, _, e⟩ | ⟨_, h4, e4, e⟩
    · cases e
    obtain ⟨ho3, rfl⟩ := Act.get_inv e3
    obtain ⟨dt', ho'⟩ := ((withLoop_alike e1).trans (resolveAt_alike e2)).tableQ ho
    rw [ho3] at ho'
    cases ho'
    cases e4
    cases e
    rw [put_same]
    rfl

/-- `WITH t AS (SELECT 1 AS x) TABLE t`: the column has a type, the query none. -/
theorem C74_table_reached : ∃ t h', Resolves (objs [.tableQ 1 none none [] [2] .unknown, .table ⟨c% "t", none, none, []⟩, .aliased 3 (c% "t") [],
      .select [.alias (.lit (some (.int 1)) (.simple .integer)) (c% "x")] none none none none false [] none none [] [] (.simple .integer)])
      .empty 0 (.ok t) h' ∧ t.fields.map (·.ty) = [.simple .integer] ∧ (h' 0).bind RelObj.dataType = some .unknown :=
  ⟨_, _, ⟨6, rfl⟩, rfl, rfl⟩

end Treeno.Props
