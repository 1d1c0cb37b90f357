import Verif.Schema
/-!
# Equation lemmas of the functions in `Verif/Schema.lean`, one per match arm (all by `rfl`)
-/
set_option linter.unusedVariables false
namespace Treeno

theorem Query_resolve_mk (s) (b) (off) (lim) (ob) (w) :
    Query.resolve s (.mk b off lim ob w : Query) =
      ( do
    let p ← pickWith b.usesWith w (Named.resolveW .empty w)
    let r ← b.resolve s p.2
    .ok (.mk r.1 off lim ob p.1, r.2)) := rfl
theorem QBody_resolve_select (s) (ws) (items) (fr) (wh) (gb) (hv) (d) (wins) :
    QBody.resolve s ws (.select items fr wh gb hv d wins : QBody) =
      ( do
    let p ← Rel.resolveFrom s ws items fr
    .ok (.select p.2.1 p.1 wh gb hv d wins, p.2.2)) := rfl
theorem QBody_resolve_set (s) (ws) (k) (l) (r) (d) :
    QBody.resolve s ws (.set k l r d : QBody) =
      ( do
    let p ← l.resolve .empty
    let p' ← r.resolve .empty
    .ok (.set k p.1 p'.1 d, ⟨p.2.fields.map fun f => ⟨f.name, .query, f.ty⟩, p.2.ids⟩)) := rfl
theorem QBody_resolve_table (s) (ws) (t) :
    QBody.resolve s ws (.table t : QBody) =
      ( .ok (.table (t.resolve ws).1, (t.resolve ws).2)) := rfl
theorem QBody_resolve_values (s) (ws) (u1_) :
    QBody.resolve s ws (.values u1_ : QBody) =
      ( .error .typeError) := rfl
theorem Rel_resolveFrom_none (s) (ws) (items) :
    Rel.resolveFrom s ws items (none : Option Rel) =
      ( do
    let cs ← selectCols items
    .ok (none, items, ⟨cs, []⟩)) := rfl
theorem Rel_resolveFrom_some (s) (ws) (items) (r) :
    Rel.resolveFrom s ws items (some r : Option Rel) =
      ( do
    let ex ← s.merge ws
    let p ← r.resolve (prune r ex)
    let out ← selectOut p.2 items
    .ok (some p.1, out)) := rfl
theorem Named_resolveW_nil (s) :
    Named.resolveW s ([] : List Named) =
      ( .ok ([], s)) := rfl
theorem Named_resolveW_cons (s) (n) (ns) :
    Named.resolveW s (n :: ns : List Named) =
      ( do
    let p ← Named.resolve s n
    let m ← s.merge p.2
    let p' ← Named.resolveW m ns
    .ok (p.1 :: p'.1, p'.2)) := rfl
theorem Named_resolve_mk (s) (r) (a) (cols) :
    Named.resolve s (.mk r a cols : Named) =
      ( do
    let p ← r.resolve (prune r s)
    let fs ← renameCols (.aliased p.1.key a cols) cols 0 p.2.fields
    .ok (.mk p.1 a cols, ⟨fs, [a]⟩)) := rfl
theorem Rel_resolve_table (s) (t) :
    Rel.resolve s (.table t : Rel) =
      ( .ok (.table (t.resolve s).1, (t.resolve s).2)) := rfl
theorem Rel_resolve_query (s) (q) :
    Rel.resolve s (.query q : Rel) =
      ( do
    let p ← q.resolve s
    .ok (.query p.1, p.2)) := rfl
theorem Rel_resolve_aliased (s) (n) :
    Rel.resolve s (.aliased n : Rel) =
      ( do
    let p ← Named.resolve s n
    .ok (.aliased p.1, p.2)) := rfl
theorem Rel_resolve_join (s) (l) (r) (t) (nat) (cr) :
    Rel.resolve s (.join l r t nat cr : Rel) =
      ( do
    let p ← l.resolve (prune l s)
    let ex ← s.merge p.2
    let p' ← r.resolve (prune r ex)
    let m ← p.2.merge p'.2
    .ok (.join p.1 p'.1 t nat cr, m)) := rfl
theorem Rel_resolve_unnest (s) (as) (o) :
    Rel.resolve s (.unnest as o : Rel) =
      ( do
    let as' ← resolveFieldsL s as
    let ts ← Expr.checks as'
    .ok (.unnest as' o, ⟨ts.map fun t => ⟨none, .unnest as.length o, elemType t⟩, []⟩)) := rfl
theorem Rel_resolve_lateral (s) (q) :
    Rel.resolve s (.lateral q : Rel) =
      ( do
    let p ← q.resolve s
    .ok (.lateral p.1, p.2)) := rfl
theorem Rel_resolve_sample (s) (r) (t) (p) :
    Rel.resolve s (.sample r t p : Rel) =
      ( do
    let p' ← r.resolve s
    .ok (.sample p'.1 t p, p'.2)) := rfl

end Treeno
