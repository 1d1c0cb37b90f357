import Verif.Props.SchemaProps
/-!
# C67: the columns of joins, UNNEST, samples, LATERAL, set operations, TABLE and VALUES
-/
set_option autoImplicit false
namespace Treeno.Props
open Treeno Spec

/-- **C67.** A resolved join has the columns of its left side, in order, followed by those columns of its
right side that are not among them, in order and once each; its relation names are those of both sides.
The left side is resolved in the surrounding schema, the right side also sees the columns of the left one
(unless it is a query). -/
theorem C67_join_partial (s : Schema) (l r : Rel) (t : JoinType) (nat : Bool) (cr : Option Crit) (p : Rel × Schema)
    (h : (Rel.join l r t nat cr).resolve s = .ok p) :
    ∃ (l' r' : Rel) (ls rs seen : Schema),
      l.resolve (if l.isQuery then .empty else s) = .ok (l', ls) ∧
      r.resolve (if r.isQuery then .empty else seen) = .ok (r', rs) ∧
      seen.fields = s.fields ++ fresh s.fields ls.fields ∧ (∀ n, n ∈ seen.ids ↔ n ∈ s.ids ∨ n ∈ ls.ids) ∧
      p.1 = .join l' r' t nat cr ∧
      p.2.fields = ls.fields ++ fresh ls.fields rs.fields ∧
      ∀ n, n ∈ p.2.ids ↔ n ∈ ls.ids ∨ n ∈ rs.ids := by
  rw [Rel_resolve_join] at h
  obtain ⟨x, hx, h⟩ := bind_ok h
  obtain ⟨ex, he, h⟩ := bind_ok h
  obtain ⟨y, hy, h⟩ := bind_ok h
  obtain ⟨m, hm, h⟩ := bind_ok h
  cases h
  obtain ⟨e1, e2⟩ := C33_merge _ _ _ he
  obtain ⟨m1, m2⟩ := C33_merge _ _ _ hm
  exact ⟨x.1, y.1, x.2, y.2, ex, hx, hy, e1, e2, rfl, m1, m2⟩

theorem fresh_all : ∀ (fs seen : List Col), fs.Nodup → (∀ f ∈ fs, f ∉ seen) → fresh seen fs = fs
  | [], _, _, _ => rfl
  | f :: fs, seen, hd, hn => by
    rw [fresh, if_neg (hn f List.mem_cons_self)]
    congr 1
    refine fresh_all fs _ (List.nodup_cons.mp hd).2 fun g hg hm => ?_
    rcases List.mem_cons.mp hm with rfl | hm
    · exact (List.nodup_cons.mp hd).1 hg
    · exact hn g (List.mem_cons_of_mem _ hg) hm

/-- **C67.** When the two sides share no column and the right side repeats none, that is all columns of the
left side followed by all columns of the right side. -/
theorem C67_join_disjoint (s : Schema) (l r : Rel) (t : JoinType) (nat : Bool) (cr : Option Crit) (p : Rel × Schema)
    (h : (Rel.join l r t nat cr).resolve s = .ok p) :
    ∃ (l' r' : Rel) (ls rs seen : Schema),
      l.resolve (if l.isQuery then .empty else s) = .ok (l', ls) ∧
      r.resolve (if r.isQuery then .empty else seen) = .ok (r', rs) ∧
      (rs.fields.Nodup → (∀ f ∈ rs.fields, f ∉ ls.fields) → p.2.fields = ls.fields ++ rs.fields) := by
  obtain ⟨l', r', ls, rs, seen, h1, h2, -, -, -, h6, -⟩ := C67_join_partial s l r t nat cr p h
  exact ⟨l', r', ls, rs, seen, h1, h2, fun hd hn => by rw [h6, fresh_all _ _ hd hn]⟩

/-- The table `n` with one column `c` of type `ty`. -/
def oneCol (n c : Str) (ty : Ty) : Rel := .table ⟨n, none, none, [⟨some c, .table n none none, ty⟩]⟩

-- `t CROSS JOIN u`: the column of `t` comes first
example : ((Rel.join (oneCol (c% "t") (c% "x") .bigint) (oneCol (c% "u") (c% "y") .double) .cross false none).resolve
      .empty).map (·.2) =
    .ok ⟨[⟨some (c% "x"), .table (c% "t") none none, .bigint⟩, ⟨some (c% "y"), .table (c% "u") none none, .double⟩],
      [c% "t", c% "u"]⟩ := rfl

/-- `t JOIN u USING (x)` has both columns `x` instead of one: the criteria play no part. -/
theorem C67_using_not_joined :
    ((Rel.join (oneCol (c% "t") (c% "x") .bigint) (oneCol (c% "u") (c% "x") .bigint) .inner false
        (some (.using [c% "x"]))).resolve .empty).map (·.2.fields.map (·.name)) =
    .ok [some (c% "x"), some (c% "x")] := rfl

/-- Neither the kind of a join nor its criteria change its columns. -/
theorem C67_join_kind (s : Schema) (l r : Rel) (t t' : JoinType) (nat nat' : Bool) (cr cr' : Option Crit) :
    ((Rel.join l r t nat cr).resolve s).map (·.2) = ((Rel.join l r t' nat' cr').resolve s).map (·.2) := by
  rw [Rel_resolve_join, Rel_resolve_join]
  cases l.resolve (prune l s) with
  | error e => rfl
  | ok x =>
    simp only [bind, Except.bind]
    cases s.merge x.2 with
    | error e => rfl
    | ok ex =>
      simp only
      cases r.resolve (prune r ex) with
      | error e => rfl
      | ok y =>
        simp only
        cases x.2.merge y.2 <;> rfl

/-- **C67.** A sample has the columns of the relation sampled, resolved in the same schema. -/
theorem C67_sample (s : Schema) (r : Rel) (t : SampleType) (e : Expr) :
    ((Rel.sample r t e).resolve s).map (·.2) = (r.resolve s).map (·.2) := by
  rw [Rel_resolve_sample]
  cases r.resolve s <;> rfl

/-- **C67.** LATERAL has the columns of its query, which sees the surrounding schema. -/
theorem C67_lateral (s : Schema) (q : Query) :
    ((Rel.lateral q).resolve s).map (·.2) = (q.resolve s).map (·.2) := by
  rw [Rel_resolve_lateral]
  cases q.resolve s <;> rfl

theorem checks_spec : ∀ {es : List Expr} {ts : List Ty}, Expr.checks es = .ok ts →
    All2 (fun e t => e.check = .ok t) es ts
  | [], ts, h => by cases h; exact .nil
  | e :: es, ts, h => by
    rw [Expr_checks_cons] at h
    obtain ⟨t, ht, h⟩ := bind_ok h
    obtain ⟨r, hr, h⟩ := bind_ok h
    cases h
    exact .cons ht (checks_spec hr)

theorem element_elemType (t : Ty) : Element t (elemType t) := by
  cases t <;> first | exact .inl rfl | exact .inr ⟨nofun, rfl⟩

/-- **C67.** A resolved UNNEST has no relation names and one unnamed column per array, in order, of the
type of the elements of that array after resolving it.  Missing: the column of WITH ORDINALITY
(`C67_ordinality_missing`) and the second column of a map (`C67_unnest_map`). -/
theorem C67_unnest_partial (s : Schema) (as : List Expr) (o : Bool) (p : Rel × Schema)
    (h : (Rel.unnest as o).resolve s = .ok p) :
    ∃ as', p.1 = .unnest as' o ∧ p.2.ids = [] ∧
      All2 (fun e e' => resolveFields s e = .ok e') as as' ∧
      All2 (fun e c => c.name = none ∧ ∃ t, e.check = .ok t ∧ Element t c.ty) as' p.2.fields := by
  rw [Rel_resolve_unnest] at h
  obtain ⟨x, hx, h⟩ := bind_ok h
  obtain ⟨ts, hts, h⟩ := bind_ok h
  cases h
  refine ⟨x, rfl, rfl, resolveFieldsL_spec s hx, ?_⟩
  have key : ∀ {es : List Expr} {ts : List Ty} (k : Key), All2 (fun e t => e.check = .ok t) es ts →
      All2 (fun (e : Expr) (c : Col) => c.name = none ∧ ∃ t, e.check = .ok t ∧ Element t c.ty) es
        (ts.map fun t => ⟨none, k, elemType t⟩) := by
    intro es ts k h
    induction h with
    | nil => exact .nil
    | cons h1 _ ih => exact .cons ⟨rfl, _, h1, element_elemType _⟩ ih
  exact key _ (checks_spec hts)

/-- `UNNEST(ARRAY[1]) WITH ORDINALITY` has one column instead of two. -/
theorem C67_ordinality_missing :
    ((Rel.unnest [.array [.lit (some (.int 1)) (.simple .integer)]] true).resolve .empty).map (·.2.fields.length) =
      .ok 1 := rfl

/-- `UNNEST(m)`, `m` a map, has one column of unknown type instead of two. -/
theorem C67_unnest_map (k v : Ty) :
    ((Rel.unnest [.field (c% "m") none (.map k v)] false).resolve .empty).map (·.2.fields.map (·.ty)) =
      .ok [.unknown] := rfl

-- `UNNEST(t.a)` after `t`: the array is found through the left side of the join
example : ((Rel.join (oneCol (c% "t") (c% "a") (.array .bigint)) (.unnest [.field (c% "a") (some (c% "t")) .unknown] false)
      .cross false none).resolve .empty).map (fun p => p.2.fields.map fun f => (f.name, f.ty)) =
    .ok [(some (c% "a"), .array .bigint), (none, .bigint)] := rfl

/-- **C67.** A resolved set operation has the columns of its left side: their names and types, in order,
both sides being resolved on their own. -/
theorem C67_set (s : Schema) (k : SetKind) (l r : Query) (d : Bool) (off lim : Option Int) (ob : List Ord)
    (w : List Named) (p : Query × Schema) (h : (Query.mk (.set k l r d) off lim ob w).resolve s = .ok p) :
    ∃ (l' r' : Query) (ls rs : Schema), l.resolve .empty = .ok (l', ls) ∧ r.resolve .empty = .ok (r', rs) ∧
      p.1 = .mk (.set k l' r' d) off lim ob w ∧ p.2.ids = ls.ids ∧
      p.2.fields.map (fun f => (f.name, f.ty)) = ls.fields.map (fun f => (f.name, f.ty)) ∧
      ∀ f ∈ p.2.fields, f.source = .query := by
  rw [Query_resolve_mk] at h
  obtain ⟨pw, hw, h⟩ := bind_ok h
  obtain ⟨b, hb, h⟩ := bind_ok h
  cases hw
  rw [QBody_resolve_set] at hb
  obtain ⟨x, hx, hb⟩ := bind_ok hb
  obtain ⟨y, hy, hb⟩ := bind_ok hb
  cases hb
  cases h
  refine ⟨x.1, y.1, x.2, y.2, hx, hy, rfl, rfl, ?_, ?_⟩
  · simp [List.map_map, Function.comp_def]
  · intro f hf
    obtain ⟨g, _, rfl⟩ := List.mem_map.mp hf
    rfl

-- `SELECT 1 AS x UNION SELECT 2 AS y`: the name is that of the left side
example : ((Query.mk (.set .union oneX
      (.mk (.select [.alias (.lit (some (.int 2)) (.simple .integer)) (c% "y")] none none none none false []) none none [] [])
      true) none none [] []).resolve .empty).map (·.2) =
    .ok ⟨[⟨some (c% "x"), .query, .simple .integer⟩], []⟩ := rfl

/-- **C67.** `TABLE t` has the columns of the table `t` in the schema of the query's own WITH clause. -/
theorem C67_table (s : Schema) (t : TableRef) (off lim : Option Int) (ob : List Ord) (w : List Named)
    (p : Query × Schema) (h : (Query.mk (.table t) off lim ob w).resolve s = .ok p) :
    ∃ (w' : List Named) (ws : Schema) (t' : TableRef), Named.resolveW .empty w = .ok (w', ws) ∧
      (Rel.table t).resolve ws = .ok (.table t', p.2) ∧ p.1 = .mk (.table t') off lim ob w' := by
  rw [Query_resolve_mk] at h
  obtain ⟨pw, hw, h⟩ := bind_ok h
  obtain ⟨b, hb, h⟩ := bind_ok h
  rw [QBody_resolve_table] at hb
  cases hb
  cases h
  exact ⟨pw.1, pw.2, _, hw, Rel_resolve_table _ _, rfl⟩

/-- **C67.** A table whose name the surrounding schema defines has exactly the columns tied to that name,
in their order. -/
theorem C67_table_order (s : Schema) (t : TableRef) (h : t.name ∈ s.ids) (p : Rel × Schema)
    (hp : (Rel.table t).resolve s = .ok p) : Chosen (Of t.name) s.fields p.2.fields := by
  rw [Rel_resolve_table] at hp
  cases hp
  have e : (t.resolve s).2.fields = s.fields.filter (·.source.identifier == some t.name) := by
    simp [TableRef.resolve, h]
  show Chosen _ _ (t.resolve s).2.fields
  rw [e]
  exact chosen_filter t.name s.fields

-- `WITH a AS (SELECT 1 AS x) TABLE a`
example : ((Query.mk (.table ⟨c% "a", none, none, []⟩) none none [] [.mk (.query oneX) (c% "a") []]).resolve
      .empty).map (fun p => p.2.fields.map fun f => (f.name, f.ty)) =
    .ok [(some (c% "x"), .simple .integer)] := rfl

/-- VALUES cannot be resolved at all. -/
theorem C67_values_raise (s : Schema) (rows : List Expr) (off lim : Option Int) (ob : List Ord) (w : List Named) :
    (Query.mk (.values rows) off lim ob w).resolve s = .error .typeError := rfl

end Treeno.Props
