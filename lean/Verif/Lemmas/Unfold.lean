import Verif.Spec.Objects
/-! Facts about the unfolding of heaps: it depends on the objects met only. -/
set_option autoImplicit false
namespace Treeno
open Spec

/-- An object without the type of a query or UNNEST. -/
def RelObj.strip : RelObj → RelObj
  | .select items f wh gb hv d wins off lim ob w _ => .select items f wh gb hv d wins off lim ob w .unknown
  | .set k a b d off lim ob w _ => .set k a b d off lim ob w .unknown
  | .tableQ t off lim ob w _ => .tableQ t off lim ob w .unknown
  | .values es off lim ob w _ => .values es off lim ob w .unknown
  | .unnest as o _ => .unnest as o .unknown
  | o => o

/-- Two places of heaps hold the same object but for these types. -/
abbrev SameObj (x y : Option RelObj) : Prop := x.map RelObj.strip = y.map RelObj.strip

theorem SameObj.some {x : Option RelObj} {o : RelObj} (E : SameObj x (Option.some o)) : ∃ o', x = Option.some o' ∧ o'.strip = o.strip := by
  cases x with
  | none => cases E
  | some o' => exact ⟨o', rfl, Option.some.inj E⟩
theorem SameObj.select {x : Option RelObj} {items f wh gb hv d wins off lim ob w dt}
    (E : SameObj x (Option.some (.select items f wh gb hv d wins off lim ob w dt))) : ∃ dt', x = Option.some (.select items f wh gb hv d wins off lim ob w dt') := by
  obtain ⟨o', rfl, e⟩ := E.some
  cases o' <;> first | (cases e; done) | skip
  cases e
  exact ⟨_, rfl⟩
theorem SameObj.set {x : Option RelObj} {k a b d off lim ob w dt}
    (E : SameObj x (Option.some (.set k a b d off lim ob w dt))) : ∃ dt', x = Option.some (.set k a b d off lim ob w dt') := by
  obtain ⟨o', rfl, e⟩ := E.some
  cases o' <;> first | (cases e; done) | skip
  cases e
  exact ⟨_, rfl⟩
theorem SameObj.tableQ {x : Option RelObj} {t off lim ob w dt}
    (E : SameObj x (Option.some (.tableQ t off lim ob w dt))) : ∃ dt', x = Option.some (.tableQ t off lim ob w dt') := by
  obtain ⟨o', rfl, e⟩ := E.some
  cases o' <;> first | (cases e; done) | skip
  cases e
  exact ⟨_, rfl⟩
theorem SameObj.values {x : Option RelObj} {es off lim ob w dt}
    (E : SameObj x (Option.some (.values es off lim ob w dt))) : ∃ dt', x = Option.some (.values es off lim ob w dt') := by
  obtain ⟨o', rfl, e⟩ := E.some
  cases o' <;> first | (cases e; done) | skip
  cases e
  exact ⟨_, rfl⟩
theorem SameObj.unnest {x : Option RelObj} {as o dt} (E : SameObj x (Option.some (.unnest as o dt))) : ∃ dt', x = Option.some (.unnest as o dt') := by
  obtain ⟨o', rfl, e⟩ := E.some
  cases o' <;> first | (cases e; done) | skip
  cases e
  exact ⟨_, rfl⟩
/-- Objects without a type. -/
theorem SameObj.plain {x : Option RelObj} {o : RelObj} (E : SameObj x (Option.some o)) (hp : ∀ o' : RelObj, o'.strip = o.strip → o' = o := by
    intro o' e; cases o' <;> first | exact e | cases e) : x = Option.some o := by
  obtain ⟨o', rfl, e⟩ := E.some
  rw [hp o' e]

/-- The heaps agree on these objects, but for the types of queries and UNNEST. -/
def AgreeOn (fp : List Ref) (h h' : Heap) : Prop := ∀ a ∈ fp, SameObj (h' a) (h a)

theorem AgreeOn.left {f g : List Ref} {h h' : Heap} (H : AgreeOn (f ++ g) h h') : AgreeOn f h h' :=
  fun a m => H a (List.mem_append_left _ m)
theorem AgreeOn.right {f g : List Ref} {h h' : Heap} (H : AgreeOn (f ++ g) h h') : AgreeOn g h h' :=
  fun a m => H a (List.mem_append_right _ m)
theorem AgreeOn.tail {r : Ref} {g : List Ref} {h h' : Heap} (H : AgreeOn (r :: g) h h') : AgreeOn g h h' :=
  fun a m => H a (List.mem_cons_of_mem _ m)
theorem AgreeOn.head {r : Ref} {g : List Ref} {h h' : Heap} (H : AgreeOn (r :: g) h h') : SameObj (h' r) (h r) :=
  H r (List.mem_cons_self ..)

mutual
theorem Query.At.congr : ∀ (q : Query) {h h' : Heap} {r : Ref} {fp : List Ref}, q.At h r fp → AgreeOn fp h h' → q.At h' r fp
  | .mk b off lim ob w, h, h', r, fp, H, A => by
    obtain ⟨ws, fw, fb, hb, hw, rfl⟩ := H
    exact ⟨ws, fw, fb, QBody.At.congr b hb A.head A.tail.right, Named.Ats.congr w hw A.tail.left, rfl⟩
theorem QBody.At.congr : ∀ (b : QBody) {h h' : Heap} {r : Ref} {fb : List Ref} {off lim : Option Int} {ob : List Ord} {ws : List Ref},
    b.At h r fb off lim ob ws → SameObj (h' r) (h r) → AgreeOn fb h h' → b.At h' r fb off lim ob ws
  | .select items fr wh gb hv d wins, h, h', r, fb, off, lim, ob, ws, H, E, A => by
    obtain ⟨f, dt, ho, hf⟩ := H
    rw [ho] at E
    obtain ⟨dt', ho'⟩ := E.select
    exact ⟨f, dt', ho', Rel.AtOpt.congr fr hf A⟩
  | .set k l r' d, h, h', r, fb, off, lim, ob, ws, H, E, A => by
    obtain ⟨a, b, dt, fa, fb', ho, hl, hr, rfl⟩ := H
    rw [ho] at E
    obtain ⟨dt', ho'⟩ := E.set
    exact ⟨a, b, dt', fa, fb', ho', Query.At.congr l hl A.left, Query.At.congr r' hr A.right, rfl⟩
  | .table t, h, h', r, fb, off, lim, ob, ws, H, E, A => by
    obtain ⟨a, dt, ho, ht, rfl⟩ := H
    rw [ho] at E
    obtain ⟨dt', ho'⟩ := E.tableQ
    have A := A.head
    rw [ht] at A
    exact ⟨a, dt', ho', A.plain, rfl⟩
  | .values es, h, h', r, fb, off, lim, ob, ws, H, E, A => by
    obtain ⟨dt, ho, rfl⟩ := H
    rw [ho] at E
    obtain ⟨dt', ho'⟩ := E.values
    exact ⟨dt', ho', rfl⟩
theorem Rel.AtOpt.congr : ∀ (fr : Option Rel) {h h' : Heap} {f : Option Ref} {fp : List Ref}, Rel.AtOpt h f fp fr →
    AgreeOn fp h h' → Rel.AtOpt h' f fp fr
  | none, _, _, _, _, H, _ => H
  | some r, h, h', f, fp, H, A => by
    obtain ⟨a, rfl, hr⟩ := H
    exact ⟨a, rfl, Rel.At.congr r hr A⟩
theorem Named.Ats.congr : ∀ (w : List Named) {h h' : Heap} {ws fp : List Ref}, Named.Ats h ws fp w → AgreeOn fp h h' →
    Named.Ats h' ws fp w
  | [], _, _, _, _, H, _ => H
  | n :: ns, h, h', ws, fp, H, A => by
    obtain ⟨a, as, fa, fas, rfl, hn, hns, rfl⟩ := H
    exact ⟨a, as, fa, fas, rfl, Named.At.congr n hn A.left, Named.Ats.congr ns hns A.right, rfl⟩
theorem Named.At.congr : ∀ (n : Named) {h h' : Heap} {r : Ref} {fp : List Ref}, n.At h r fp → AgreeOn fp h h' → n.At h' r fp
  | .mk rel a cols, h, h', r, fp, H, A => by
    obtain ⟨f, fa, ho, hr, rfl⟩ := H
    exact ⟨f, fa, (ho ▸ A.head : SameObj _ (some _)).plain, Rel.At.congr rel hr A.tail, rfl⟩
theorem Rel.At.congr : ∀ (R : Rel) {h h' : Heap} {r : Ref} {fp : List Ref}, R.At h r fp → AgreeOn fp h h' → R.At h' r fp
  | .table t, h, h', r, fp, H, A => by
    obtain ⟨ho, rfl⟩ := H
    exact ⟨(ho ▸ A.head : SameObj _ (some _)).plain, rfl⟩
  | .query q, _, _, _, _, H, A => Query.At.congr q H A
  | .aliased n, _, _, _, _, H, A => Named.At.congr n H A
  | .join l r' t nat cr, h, h', r, fp, H, A => by
    obtain ⟨a, b, fa, fb, ho, hl, hr, rfl⟩ := H
    exact ⟨a, b, fa, fb, (ho ▸ A.head : SameObj _ (some _)).plain, Rel.At.congr l hl A.tail.left, Rel.At.congr r' hr A.tail.right, rfl⟩
  | .unnest as o, h, h', r, fp, H, A => by
    obtain ⟨dt, ho, rfl⟩ := H
    have A := A.head
    rw [ho] at A
    obtain ⟨dt', ho'⟩ := A.unnest
    exact ⟨dt', ho', rfl⟩
  | .lateral q, h, h', r, fp, H, A => by
    obtain ⟨a, fa, ho, hq, rfl⟩ := H
    exact ⟨a, fa, (ho ▸ A.head : SameObj _ (some _)).plain, Query.At.congr q hq A.tail, rfl⟩
  | .sample rel t p, h, h', r, fp, H, A => by
    obtain ⟨a, fa, ho, hq, rfl⟩ := H
    exact ⟨a, fa, (ho ▸ A.head : SameObj _ (some _)).plain, Rel.At.congr rel hq A.tail, rfl⟩
end

/-- The object behind a tree. -/
theorem Query.At.obj {q : Query} {h : Heap} {r : Ref} {fp : List Ref} (H : q.At h r fp) : ∃ o, h r = some o ∧ o.isQuery = true := by
  obtain ⟨b, off, lim, ob, w⟩ := q
  obtain ⟨ws, fw, fb, hb, _, _⟩ := H
  cases b with
  | select items fr wh gb hv d wins => obtain ⟨f, dt, ho, _⟩ := hb; exact ⟨_, ho, rfl⟩
  | set k l r' d => obtain ⟨a, b, dt, fa, fb', ho, _⟩ := hb; exact ⟨_, ho, rfl⟩
  | table t => obtain ⟨a, dt, ho, _⟩ := hb; exact ⟨_, ho, rfl⟩
  | values es => obtain ⟨dt, ho, _⟩ := hb; exact ⟨_, ho, rfl⟩

theorem Rel.At.obj {R : Rel} {h : Heap} {r : Ref} {fp : List Ref} (H : R.At h r fp) :
    ∃ o, h r = some o ∧ o.isQuery = R.isQuery := by
  cases R with
  | table t => exact ⟨_, H.1, rfl⟩
  | query q => exact Query.At.obj H
  | aliased n =>
    obtain ⟨rel, a, cols⟩ := n
    obtain ⟨f, fa, ho, _⟩ := H
    exact ⟨_, ho, rfl⟩
  | join l r' t nat cr => obtain ⟨a, b, fa, fb, ho, _⟩ := H; exact ⟨_, ho, rfl⟩
  | unnest as o => obtain ⟨dt, ho, _⟩ := H; exact ⟨_, ho, rfl⟩
  | lateral q => obtain ⟨a, fa, ho, _⟩ := H; exact ⟨_, ho, rfl⟩
  | sample rel t p => obtain ⟨a, fa, ho, _⟩ := H; exact ⟨_, ho, rfl⟩

theorem Query.At.root {q : Query} {h : Heap} {r : Ref} {fp : List Ref} (H : q.At h r fp) : ∃ g, fp = r :: g := by
  obtain ⟨b, off, lim, ob, w⟩ := q
  obtain ⟨ws, fw, fb, _, _, rfl⟩ := H
  exact ⟨_, rfl⟩

end Treeno
