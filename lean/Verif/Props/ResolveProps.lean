import Verif.Lemmas.MapMean
import Verif.Props.SchemaProps
import Verif.Lemmas.WalkIdem
/-!
# C58: resolving twice
-/
set_option autoImplicit false
namespace Treeno.Props
open Treeno Spec

theorem resolveLeaf_fixed {s : Schema} {e r : Expr} (h : resolveLeaf s e = some (.ok r)) : resolveLeaf s r = some (.ok r) := by
  cases e with
  | field n t ty =>
    have h : makeField s n t ty = .ok r := Option.some.inj h
    unfold makeField at h
    by_cases hm : (s.fields.filter (fieldMatches s.ids n t)).isEmpty
    · simp only [hm, if_true] at h
      cases h
      show some (makeField s n t ty) = _
      unfold makeField
      simp only [hm, if_true]
    · simp only [hm] at h
      cases t with
      | none =>
        obtain ⟨x, hx, h⟩ := bind_ok h
        cases h
        show some (makeField s n none x) = _
        unfold makeField
        simp only [hm]
        show some (uniqueTy _ >>= _) = _
        rw [hx]
        rfl
      | some tab =>
        obtain ⟨x, hx, h⟩ := bind_ok h
        cases h
        show some (makeField s n (some tab) x) = _
        unfold makeField
        simp only [hm]
        show some (uniqueTy _ >>= _) = _
        rw [hx]
        rfl
  | fieldOf n b ty =>
    have h : makeFieldOf s n b ty = .ok r := Option.some.inj h
    have hr : r = .fieldOf n b ty := by
      unfold makeFieldOf at h
      split at h
      · cases h
      · split at h
        · cases h; rfl
        · cases h
    subst hr
    exact congrArg some h
  | star t ty =>
    cases h
    rfl
  | starOf b ty =>
    have h : makeStarOf s b = .ok r := Option.some.inj h
    have hr : r = .starOf b (.row (s.fields.map (·.ty))) := by
      unfold makeStarOf at h
      split at h
      · cases h
      · split at h
        · cases h; rfl
        · cases h
    rw [hr] at h ⊢
    exact congrArg some h
  | _ => cases h

theorem resolveLeaf_none {s : Schema} (e e' : Expr) (hs : SameNode e e') (h : resolveLeaf s e = none) : resolveLeaf s e' = none := by
  cases hs <;> first | rfl | cases h

/-- **C58.** A resolved expression is left alone by resolving it again against the same schema. -/
theorem C58_expression (s : Schema) (e e' : Expr) (h : resolveFields s e = .ok e') : resolveFields s e' = .ok e' := by
  obtain ⟨x, hx, h⟩ := bind_ok h
  obtain ⟨y, hy, h⟩ := bind_ok h
  cases h
  unfold resolveFields
  rw [walkIdemExpr (fun _ _ h => resolveLeaf_fixed h) resolveLeaf_none (fun _ _ h => by cases h) e e' hx]
  show (Expr.check e' >>= _) = _
  rw [hy]
  rfl

theorem C58_expressions (s : Schema) : ∀ (es es' : List Expr), resolveFieldsL s es = .ok es' → resolveFieldsL s es' = .ok es'
  | [], es', h => by cases h; rfl
  | e :: es, es', h => by
    obtain ⟨x, hx, h⟩ := bind_ok h
    obtain ⟨y, hy, h⟩ := bind_ok h
    cases h
    show (resolveFields s x >>= _) = _
    rw [C58_expression s e x hx]
    show (resolveFieldsL s y >>= _) = _
    rw [C58_expressions s es y hy]
    rfl

theorem tableResolve_fixed (s : Schema) (t : TableRef) : (t.resolve s).1.resolve s = t.resolve s := by
  by_cases h : s.ids.contains t.name
  · have e : t.resolve s = ({ t with cols := s.fields.filter (fun x => x.source.identifier == some t.name) },
        ⟨s.fields.filter (fun x => x.source.identifier == some t.name), [t.name]⟩) := by
      unfold TableRef.resolve
      simp only [h, if_true]
    rw [e]
    unfold TableRef.resolve
    simp only [h, if_true]
  · have e : t.resolve s = (t, ⟨t.cols, [t.name]⟩) := by
      unfold TableRef.resolve
      simp only [h]
      rfl
    rw [e]
    exact e

theorem tableResolve_key (s : Schema) (t : TableRef) : (Rel.table (t.resolve s).1).key = (Rel.table t).key := by
  unfold TableRef.resolve
  split <;> rfl

theorem resolved_length (s : Schema) : ∀ (es es' : List Expr), resolveFieldsL s es = .ok es' → es'.length = es.length
  | [], es', h => by cases h; rfl
  | e :: es, es', h => by
    obtain ⟨x, hx, h⟩ := bind_ok h
    obtain ⟨y, hy, h⟩ := bind_ok h
    cases h
    show y.length + 1 = es.length + 1
    rw [resolved_length s es y hy]

theorem selectOut_fixed {sch : Schema} {items : List Expr} {p : List Expr × Schema} (h : selectOut sch items = .ok p) :
    selectOut sch p.1 = .ok p := by
  obtain ⟨cs, h1, h2, h3⟩ := selectOut_ok h
  unfold selectOut
  rw [C58_expressions _ _ _ h1]
  show (selectCols p.1 >>= _) = _
  rw [h2]
  show Except.ok (p.1, (⟨cs, []⟩ : Schema)) = _
  rw [← h3]

theorem usesWith_resolved {s ws : Schema} : ∀ {b : QBody} {p : QBody × Schema}, b.resolve s ws = .ok p → p.1.usesWith = b.usesWith
  | .select items fr wh gb hv d wins, p, h => by
    rw [QBody_resolve_select] at h
    obtain ⟨r, hr, h⟩ := bind_ok h
    cases h
    cases fr with
    | none =>
      rw [Rel_resolveFrom_none] at hr
      obtain ⟨x, hx, hr⟩ := bind_ok hr
      cases hr
      rfl
    | some f =>
      rw [Rel_resolveFrom_some] at hr
      obtain ⟨x, hx, hr⟩ := bind_ok hr
      obtain ⟨y, hy, hr⟩ := bind_ok hr
      obtain ⟨z, hz, hr⟩ := bind_ok hr
      cases hr
      rfl
  | .set k l r d, p, h => by
    rw [QBody_resolve_set] at h
    obtain ⟨x, hx, h⟩ := bind_ok h
    obtain ⟨y, hy, h⟩ := bind_ok h
    cases h
    rfl
  | .table t, p, h => by
    rw [QBody_resolve_table] at h
    cases h
    rfl
  | .values es, p, h => by
    rw [QBody_resolve_values] at h
    cases h

theorem isQuery_resolved {s : Schema} : ∀ {r : Rel} {p : Rel × Schema}, r.resolve s = .ok p → p.1.isQuery = r.isQuery
  | .table t, p, h => by rw [Rel_resolve_table] at h; cases h; rfl
  | .query q, p, h => by rw [Rel_resolve_query] at h; obtain ⟨x, hx, h⟩ := bind_ok h; cases h; rfl
  | .aliased n, p, h => by rw [Rel_resolve_aliased] at h; obtain ⟨x, hx, h⟩ := bind_ok h; cases h; rfl
  | .join l r t nat cr, p, h => by
    rw [Rel_resolve_join] at h
    obtain ⟨x, hx, h⟩ := bind_ok h
    obtain ⟨ex, _, h⟩ := bind_ok h
    obtain ⟨y, hy, h⟩ := bind_ok h
    obtain ⟨m, _, h⟩ := bind_ok h
    cases h
    rfl
  | .unnest as o, p, h => by
    rw [Rel_resolve_unnest] at h
    obtain ⟨x, hx, h⟩ := bind_ok h
    obtain ⟨y, hy, h⟩ := bind_ok h
    cases h
    rfl
  | .lateral q, p, h => by rw [Rel_resolve_lateral] at h; obtain ⟨x, hx, h⟩ := bind_ok h; cases h; rfl
  | .sample r t pc, p, h => by rw [Rel_resolve_sample] at h; obtain ⟨x, hx, h⟩ := bind_ok h; cases h; rfl

theorem prune_resolved {s t : Schema} {r : Rel} {p : Rel × Schema} (h : r.resolve s = .ok p) : prune p.1 t = prune r t := by
  unfold prune
  rw [isQuery_resolved h]

theorem bind_of {α β : Type} {x : Except Err α} {f : α → Except Err β} {a : α} {r : Except Err β} (h : x = .ok a) (h' : f a = r) :
    (x >>= f) = r := by
  subst h
  exact h'

set_option maxHeartbeats 800000 in
mutual
/-- **C58.** Resolving a query, a relation or a named query a second time against the same schema changes nothing, and
gives the same output columns. -/
theorem C58_query (s : Schema) : ∀ (q : Query) (p : Query × Schema), q.resolve s = .ok p → p.1.resolve s = .ok p
  | .mk b off lim ob w, p, h => by
    rw [Query_resolve_mk] at h
    obtain ⟨pw, hw, h⟩ := bind_ok h
    obtain ⟨r, hr, h⟩ := bind_ok h
    cases h
    rw [Query_resolve_mk]
    refine bind_of (a := pw) ?_ (bind_of (C58_body s pw.2 b r hr) rfl)
    rw [usesWith_resolved hr]
    unfold pickWith at hw ⊢
    split at hw
    · rename_i hu
      simp only [hu, if_true]
      exact C58_with .empty w pw hw
    · rename_i hu
      cases hw
      simp only [hu]
      rfl
theorem C58_body (s ws : Schema) : ∀ (b : QBody) (p : QBody × Schema), b.resolve s ws = .ok p → p.1.resolve s ws = .ok p
  | .select items fr wh gb hv d wins, p, h => by
    rw [QBody_resolve_select] at h
    obtain ⟨r, hr, h⟩ := bind_ok h
    cases h
    rw [QBody_resolve_select]
    exact bind_of (C58_from s ws items fr r hr) rfl
  | .set k l r d, p, h => by
    rw [QBody_resolve_set] at h
    obtain ⟨x, hx, h⟩ := bind_ok h
    obtain ⟨y, hy, h⟩ := bind_ok h
    cases h
    rw [QBody_resolve_set]
    exact bind_of (C58_query .empty l x hx) (bind_of (C58_query .empty r y hy) rfl)
  | .table t, p, h => by
    rw [QBody_resolve_table] at h
    cases h
    rw [QBody_resolve_table, tableResolve_fixed]
  | .values es, p, h => by
    rw [QBody_resolve_values] at h
    cases h
theorem C58_from (s ws : Schema) (items : List Expr) : ∀ (fr : Option Rel) (p : Option Rel × List Expr × Schema),
    Rel.resolveFrom s ws items fr = .ok p → Rel.resolveFrom s ws p.2.1 p.1 = .ok p
  | none, p, h => by
    rw [Rel_resolveFrom_none] at h
    obtain ⟨x, hx, h⟩ := bind_ok h
    cases h
    rw [Rel_resolveFrom_none]
    exact bind_of hx rfl
  | some r, p, h => by
    rw [Rel_resolveFrom_some] at h
    obtain ⟨x, hx, h⟩ := bind_ok h
    obtain ⟨y, hy, h⟩ := bind_ok h
    obtain ⟨z, hz, h⟩ := bind_ok h
    cases h
    rw [Rel_resolveFrom_some]
    refine bind_of hx (bind_of (a := y) ?_ (bind_of (selectOut_fixed hz) rfl))
    rw [prune_resolved hy]
    exact (C58_relation _ r y hy).1
theorem C58_with (s : Schema) : ∀ (w : List Named) (p : List Named × Schema), Named.resolveW s w = .ok p →
    Named.resolveW s p.1 = .ok p
  | [], p, h => by
    rw [Named_resolveW_nil] at h
    cases h
    rfl
  | n :: ns, p, h => by
    rw [Named_resolveW_cons] at h
    obtain ⟨x, hx, h⟩ := bind_ok h
    obtain ⟨y, hy, h⟩ := bind_ok h
    obtain ⟨z, hz, h⟩ := bind_ok h
    cases h
    rw [Named_resolveW_cons]
    exact bind_of (C58_named s n x hx).1 (bind_of hy (bind_of (C58_with y ns z hz) rfl))
theorem C58_named (s : Schema) : ∀ (n : Named) (p : Named × Schema), n.resolve s = .ok p →
    p.1.resolve s = .ok p ∧ p.1.key = n.key
  | .mk r a cols, p, h => by
    rw [Named_resolve_mk] at h
    obtain ⟨x, hx, h⟩ := bind_ok h
    obtain ⟨y, hy, h⟩ := bind_ok h
    cases h
    obtain ⟨h1, h2⟩ := C58_relation _ r x hx
    constructor
    · rw [Named_resolve_mk]
      refine bind_of (a := x) ?_ (bind_of hy rfl)
      rw [prune_resolved hx]
      exact h1
    · show Key.aliased x.1.key a cols = Key.aliased r.key a cols
      rw [h2]
theorem C58_relation (s : Schema) : ∀ (r : Rel) (p : Rel × Schema), r.resolve s = .ok p →
    p.1.resolve s = .ok p ∧ p.1.key = r.key
  | .table t, p, h => by
    rw [Rel_resolve_table] at h
    cases h
    refine ⟨?_, tableResolve_key s t⟩
    rw [Rel_resolve_table, tableResolve_fixed]
  | .query q, p, h => by
    rw [Rel_resolve_query] at h
    obtain ⟨x, hx, h⟩ := bind_ok h
    cases h
    refine ⟨?_, rfl⟩
    rw [Rel_resolve_query]
    exact bind_of (C58_query s q x hx) rfl
  | .aliased n, p, h => by
    rw [Rel_resolve_aliased] at h
    obtain ⟨x, hx, h⟩ := bind_ok h
    cases h
    obtain ⟨h1, h2⟩ := C58_named s n x hx
    refine ⟨?_, h2⟩
    rw [Rel_resolve_aliased]
    exact bind_of h1 rfl
  | .join l r t nat cr, p, h => by
    rw [Rel_resolve_join] at h
    obtain ⟨x, hx, h⟩ := bind_ok h
    obtain ⟨ex, hex, h⟩ := bind_ok h
    obtain ⟨y, hy, h⟩ := bind_ok h
    obtain ⟨m, hm, h⟩ := bind_ok h
    cases h
    obtain ⟨h1, h2⟩ := C58_relation _ l x hx
    obtain ⟨h3, h4⟩ := C58_relation _ r y hy
    constructor
    · rw [Rel_resolve_join]
      refine bind_of (a := x) ?_ (bind_of hex (bind_of (a := y) ?_ (bind_of hm rfl)))
      · rw [prune_resolved hx]
        exact h1
      · rw [prune_resolved hy]
        exact h3
    · show Key.join x.1.key y.1.key t nat (Crit.key cr) = Key.join l.key r.key t nat (Crit.key cr)
      rw [h2, h4]
  | .unnest as o, p, h => by
    rw [Rel_resolve_unnest] at h
    obtain ⟨x, hx, h⟩ := bind_ok h
    obtain ⟨y, hy, h⟩ := bind_ok h
    cases h
    have hl := resolved_length s as x hx
    constructor
    · rw [Rel_resolve_unnest]
      refine bind_of (C58_expressions s as x hx) (bind_of hy ?_)
      rw [hl]
    · show Key.unnest x.length o = Key.unnest as.length o
      rw [hl]
  | .lateral q, p, h => by
    rw [Rel_resolve_lateral] at h
    obtain ⟨x, hx, h⟩ := bind_ok h
    cases h
    refine ⟨?_, rfl⟩
    rw [Rel_resolve_lateral]
    exact bind_of (C58_query s q x hx) rfl
  | .sample r t pc, p, h => by
    rw [Rel_resolve_sample] at h
    obtain ⟨x, hx, h⟩ := bind_ok h
    cases h
    obtain ⟨h1, h2⟩ := C58_relation s r x hx
    constructor
    · rw [Rel_resolve_sample]
      exact bind_of h1 rfl
    · show Key.sample x.1.key t = Key.sample r.key t
      rw [h2]
end

/-- `WITH a AS (SELECT 1 AS x) SELECT x FROM a`: the first resolution puts the type in, the second keeps it. -/
theorem C58_reached : ∃ p, (selX (tab (c% "a")) [.mk (.query oneX) (c% "a") []]).resolve .empty = .ok p ∧
    (∃ r w, p.1 = .mk (.select [.field (c% "x") none (.simple .integer)] (some r) none none none false []) none none [] w) ∧
    p.1.resolve .empty = .ok p := by
  obtain ⟨p, hp, h⟩ : ∃ p, (selX (tab (c% "a")) [.mk (.query oneX) (c% "a") []]).resolve .empty = .ok p ∧
      ∃ r w, p.1 = .mk (.select [.field (c% "x") none (.simple .integer)] (some r) none none none false []) none none [] w :=
    ⟨_, rfl, _, _, rfl⟩
  exact ⟨p, hp, h, C58_query _ _ _ hp⟩

/-! ## C50: resolving keeps the meaning -/

theorem forgetNode_mean (M : Spec.Model) (e : Expr) : (forgetNode e).mean M = e.mean M := by
  cases e <;> rfl

/-- **C50.** An expression means the same before and after its columns are resolved, under every
interpretation of the operators. -/
theorem C50_meaning_expression (M : Spec.Model) (s : Schema) (e e' : Expr)
    (h : resolveFields s e = .ok e') : e'.mean M = e.mean M := by
  rw [← mm_Expr (tg := forgetTable) (forgetNode_mean M) (fun _ => rfl) e', C50_expression s e e' h,
    mm_Expr (tg := forgetTable) (forgetNode_mean M) (fun _ => rfl) e]

/-- **C50.** So does a query. -/
theorem C50_meaning_query (M : Spec.Model) (s : Schema) (q : Query) (p : Query × Schema)
    (h : q.resolve s = .ok p) : p.1.mean M = q.mean M := by
  rw [← mm_Query (tg := forgetTable) (forgetNode_mean M) (fun _ => rfl) p.1, C50_query s q p h,
    mm_Query (tg := forgetTable) (forgetNode_mean M) (fun _ => rfl) q]

end Treeno.Props
