import Verif.Lemmas.WalkTables
import Verif.Lemmas.Shadow
import Verif.Lemmas.Schema
import Verif.Lemmas.CheckEqs
import Verif.Lemmas.WalkMap
import Verif.Lemmas.WalkBind
import Verif.Lemmas.WalkCols
import Verif.Lemmas.MapId
import Verif.Spec.Schemas
/-!
# C33-C38, C40, C50: schemas, resolution, lambdas
-/
set_option autoImplicit false
namespace Treeno.Props
open Treeno Spec

/-! ## C33: merging schemas -/

theorem mergeCols_eq : ∀ (fs : List Col) (acc out : List Col) (seen : List Col), (∀ f, f ∈ seen ↔ f ∈ acc) →
    mergeCols acc fs = .ok out → out = acc ++ fresh seen fs
  | [], acc, out, seen, hs, h => by cases h; simp [fresh]
  | f :: fs, acc, out, seen, hs, h => by
    obtain ⟨b, hb, h⟩ := bind_ok h
    have hin := colIn_sound hb
    cases b with
    | true =>
      have hm : f ∈ seen := (hs f).mpr (hin.mp rfl)
      rw [mergeCols_eq fs _ out seen hs h]
      simp [fresh, hm]
    | false =>
      have hm : f ∉ seen := fun hf => by
        have := hin.mpr ((hs f).mp hf)
        cases this
      have hs' : ∀ g, g ∈ f :: seen ↔ g ∈ addCol acc f false := by
        intro g
        simp [addCol, hs g, or_comm]
      rw [mergeCols_eq fs _ out (f :: seen) hs' h]
      simp [fresh, hm, addCol]

/-- **C33.** The merged schema has the left columns, in order, followed by the right columns that are
not among them, in order and each once; its relation names are those of both sides. -/
theorem C33_merge (s t m : Schema) (h : s.merge t = .ok m) :
    m.fields = s.fields ++ fresh s.fields t.fields ∧ ∀ n, n ∈ m.ids ↔ n ∈ s.ids ∨ n ∈ t.ids := by
  obtain ⟨fs, hfs, h⟩ := bind_ok h
  cases h
  exact ⟨mergeCols_eq _ _ _ _ (fun _ => Iff.rfl) hfs, fun n => List.mem_append⟩

theorem mem_fresh {f : Col} : ∀ {fs seen : List Col}, f ∈ fresh seen fs ↔ f ∈ fs ∧ f ∉ seen
  | [], seen => by simp [fresh]
  | g :: fs, seen => by
    unfold fresh
    split
    · rename_i hg
      rw [mem_fresh (fs := fs)]
      constructor
      · rintro ⟨h1, h2⟩; exact ⟨List.mem_cons_of_mem _ h1, h2⟩
      · rintro ⟨h1, h2⟩
        rcases List.mem_cons.mp h1 with rfl | h1
        · exact absurd hg h2
        · exact ⟨h1, h2⟩
    · rename_i hg
      rw [List.mem_cons, mem_fresh (fs := fs)]
      constructor
      · rintro (rfl | ⟨h1, h2⟩)
        · exact ⟨List.mem_cons_self, hg⟩
        · exact ⟨List.mem_cons_of_mem _ h1, fun h => h2 (List.mem_cons_of_mem _ h)⟩
      · rintro ⟨h1, h2⟩
        rcases List.mem_cons.mp h1 with rfl | h1
        · exact .inl rfl
        · by_cases e : f = g
          · exact .inl e
          · exact .inr ⟨h1, by simp [e, h2]⟩

theorem fresh_congr : ∀ {fs a b : List Col}, (∀ f, f ∈ a ↔ f ∈ b) → fresh a fs = fresh b fs
  | [], _, _, _ => rfl
  | f :: fs, a, b, h => by
    unfold fresh
    by_cases hf : f ∈ a
    · rw [if_pos hf, if_pos ((h f).mp hf), fresh_congr h]
    · rw [if_neg hf, if_neg (fun h' => hf ((h f).mpr h')), fresh_congr (a := f :: a) (b := f :: b)]
      intro g; simp [h g]

theorem fresh_subset : ∀ {fs seen : List Col}, (∀ f ∈ fs, f ∈ seen) → fresh seen fs = []
  | [], _, _ => rfl
  | f :: fs, seen, h => by
    rw [fresh, if_pos (h f List.mem_cons_self)]
    exact fresh_subset fun g hg => h g (List.mem_cons_of_mem _ hg)

theorem fresh_append : ∀ {as bs seen : List Col}, fresh seen (as ++ bs) = fresh seen as ++ fresh (as ++ seen) bs
  | [], bs, seen => rfl
  | a :: as, bs, seen => by
    simp only [List.cons_append]
    rw [fresh]
    by_cases h : a ∈ seen
    · rw [if_pos h, fresh_append, fresh, if_pos h]
      congr 1
      apply fresh_congr
      intro f
      simp only [List.mem_append, List.mem_cons]
      constructor
      · rintro (h' | h') <;> simp [h']
      · rintro (rfl | h' | h')
        · exact .inr h
        · exact .inl h'
        · exact .inr h'
    · rw [if_neg h, fresh_append, fresh, if_neg h, List.cons_append]
      congr 2
      apply fresh_congr
      intro f
      simp only [List.mem_append, List.mem_cons]
      constructor
      · rintro (h' | rfl | h')
        · exact .inr (.inl h')
        · exact .inl rfl
        · exact .inr (.inr h')
      · rintro (rfl | h' | h')
        · exact .inr (.inl rfl)
        · exact .inl h'
        · exact .inr (.inr h')

theorem fresh_nodup : ∀ {fs seen : List Col}, fs.Nodup → (∀ f ∈ fs, f ∉ seen) → fresh seen fs = fs
  | [], _, _, _ => rfl
  | f :: fs, seen, hd, hs => by
    rw [fresh, if_neg (hs f List.mem_cons_self), fresh_nodup hd.of_cons]
    intro g hg
    have : g ≠ f := fun e => (List.nodup_cons.mp hd).1 (e ▸ hg)
    simp [this, hs g (List.mem_cons_of_mem _ hg)]

theorem fresh_fresh : ∀ {fs a b : List Col}, (∀ f ∈ a, f ∈ b) → fresh b (fresh a fs) = fresh b fs
  | [], _, _, _ => rfl
  | f :: fs, a, b, h => by
    by_cases ha : f ∈ a
    · rw [fresh, if_pos ha, fresh_fresh h, fresh, if_pos (h f ha)]
    · rw [fresh.eq_2 a, if_neg ha]
      by_cases hb : f ∈ b
      · rw [fresh, if_pos hb, fresh.eq_2 b, if_pos hb]
        refine fresh_fresh fun g hg => ?_
        rcases List.mem_cons.mp hg with rfl | hg
        · exact hb
        · exact h g hg
      · rw [fresh, if_neg hb, fresh.eq_2 b, if_neg hb]
        congr 1
        refine fresh_fresh fun g hg => ?_
        rcases List.mem_cons.mp hg with rfl | hg
        · exact List.mem_cons_self
        · exact List.mem_cons_of_mem _ (h g hg)

/-- **C33.** Every column of both sides is in the merged schema, and no other. -/
theorem C33_contains (s t m : Schema) (h : s.merge t = .ok m) (f : Col) :
    f ∈ m.fields ↔ f ∈ s.fields ∨ f ∈ t.fields := by
  rw [(C33_merge s t m h).1, List.mem_append, mem_fresh]
  by_cases hf : f ∈ s.fields <;> simp [hf]

/-- **C33.** The empty schema is a right identity. -/
theorem C33_right_identity (s : Schema) : s.merge .empty = .ok s := by
  simp [Schema.merge, Schema.empty, mergeCols, bind, Except.bind]

/-- **C33.** The empty schema is a left identity for schemas without repeated columns.
Missing: schemas that repeat a column, for which it is false (`C33_left_identity_fails`). -/
theorem C33_left_identity_partial (s m : Schema) (h : Schema.empty.merge s = .ok m) (hd : s.fields.Nodup) :
    m.fields = s.fields ∧ SameIds m.ids s.ids := by
  obtain ⟨h1, h2⟩ := C33_merge _ _ _ h
  constructor
  · rw [h1, show Schema.empty.fields = [] from rfl, List.nil_append]
    exact fresh_nodup hd (by simp)
  · intro n
    simp [h2 n, Schema.empty]

/-- Merging drops the second of two equal columns, so `SELECT 1, 2` has two columns but one is lost as
soon as its schema is merged. -/
theorem C33_left_identity_fails :
    Schema.empty.merge ⟨[⟨none, .query, .simple .integer⟩, ⟨none, .query, .simple .integer⟩], []⟩ =
      .ok ⟨[⟨none, .query, .simple .integer⟩], []⟩ := rfl

/-- **C33.** Merging a schema with itself adds nothing. -/
theorem C33_idempotent (s m : Schema) (h : s.merge s = .ok m) : m.fields = s.fields ∧ SameIds m.ids s.ids := by
  obtain ⟨h1, h2⟩ := C33_merge _ _ _ h
  refine ⟨?_, fun n => by simp [h2 n]⟩
  rw [h1, fresh_subset (fun _ hf => hf), List.append_nil]

/-- **C33.** Merging is associative. -/
theorem C33_associative (s t u st tu l r : Schema) (h1 : s.merge t = .ok st) (h2 : st.merge u = .ok l)
    (h3 : t.merge u = .ok tu) (h4 : s.merge tu = .ok r) : l.fields = r.fields ∧ SameIds l.ids r.ids := by
  obtain ⟨f1, i1⟩ := C33_merge _ _ _ h1
  obtain ⟨f2, i2⟩ := C33_merge _ _ _ h2
  obtain ⟨f3, i3⟩ := C33_merge _ _ _ h3
  obtain ⟨f4, i4⟩ := C33_merge _ _ _ h4
  constructor
  · rw [f2, f4, f1, f3, fresh_append, List.append_assoc]
    congr 2
    rw [fresh_fresh (a := t.fields) (b := t.fields ++ s.fields) (fun f hf => List.mem_append_left _ hf)]
    apply fresh_congr
    intro f
    simp only [List.mem_append, mem_fresh]
    by_cases hf : f ∈ s.fields <;> simp [hf]
  · intro n
    rw [i2 n, i4 n, i1 n, i3 n, or_assoc]

/-- **C33.** Merging succeeds when no column of a subquery meets a column of the same name that is not
one. -/
theorem C33_succeeds (s t : Schema)
    (h : ∀ f ∈ s.fields ++ t.fields, ∀ g ∈ s.fields ++ t.fields, f.name = g.name →
      (f.source = .query ∧ g.source = .query) ∨ (f.source.plain = true ∧ g.source.plain = true)) :
    ∃ m, s.merge t = .ok m := by
  have hin : ∀ (f : Col) (acc : List Col), (∀ g ∈ acc, ∃ v, colEq g f = .ok v) → ∃ v, colIn f acc = .ok v := by
    intro f acc
    induction acc with
    | nil => intro _; exact ⟨_, rfl⟩
    | cons g acc ih =>
      intro hg
      obtain ⟨v, hv⟩ := hg g List.mem_cons_self
      simp only [colIn, hv]
      cases v with
      | true => exact ⟨_, rfl⟩
      | false => exact ih fun g' hg' => hg g' (List.mem_cons_of_mem _ hg')
  have hcol : ∀ f ∈ s.fields ++ t.fields, ∀ g ∈ s.fields ++ t.fields, ∃ v, colEq f g = .ok v := by
    intro f hf g hg
    unfold colEq
    split
    · rename_i hn
      rcases h f hf g hg hn with ⟨h1, h2⟩ | ⟨h1, h2⟩
      · rw [h1, h2]; exact ⟨_, rfl⟩
      · obtain ⟨v, hv⟩ := keyEq_plain h1 h2
        rw [hv]; exact ⟨_, rfl⟩
    · exact ⟨_, rfl⟩
  have hm : ∀ (fs acc : List Col), (∀ f ∈ fs, f ∈ s.fields ++ t.fields) → (∀ f ∈ acc, f ∈ s.fields ++ t.fields) →
      ∃ out, mergeCols acc fs = .ok out := by
    intro fs
    induction fs with
    | nil => intro acc _ _; exact ⟨_, rfl⟩
    | cons f fs ih =>
      intro acc hf ha
      obtain ⟨v, hv⟩ := hin f acc fun g hg => hcol g (ha g hg) f (hf f List.mem_cons_self)
      simp only [mergeCols, hv]
      refine ih _ (fun g hg => hf g (List.mem_cons_of_mem _ hg)) ?_
      intro g hg
      unfold addCol at hg
      split at hg
      · exact ha g hg
      · rcases List.mem_append.mp hg with hg | hg
        · exact ha g hg
        · rw [List.mem_singleton] at hg
          exact hg ▸ hf f List.mem_cons_self
  obtain ⟨out, ho⟩ := hm t.fields s.fields (fun f hf => List.mem_append_right _ hf)
    (fun f hf => List.mem_append_left _ hf)
  exact ⟨⟨out, s.ids ++ t.ids⟩, by simp [Schema.merge, ho, bind, Except.bind]⟩

-- two tables sharing a column name
example : (⟨[⟨some (c% "x"), .table (c% "a") none none, .simple .bigint⟩], [c% "a"]⟩ : Schema).merge
      ⟨[⟨some (c% "x"), .table (c% "b") none none, .simple .bigint⟩], [c% "b"]⟩ =
    .ok ⟨[⟨some (c% "x"), .table (c% "a") none none, .simple .bigint⟩,
      ⟨some (c% "x"), .table (c% "b") none none, .simple .bigint⟩], [c% "a", c% "b"]⟩ := by decide

/-- Columns of two different subqueries are taken for the same column when name and type agree:
`(SELECT 1 AS x) CROSS JOIN (SELECT 2 AS x)` has one column. -/
theorem C33_distinct_subqueries_merged :
    (Rel.join
      (.query (.mk (.select [.alias (.lit (some (.int 1)) (.simple .integer)) (c% "x")] none none none none false []) none none [] []))
      (.query (.mk (.select [.alias (.lit (some (.int 2)) (.simple .integer)) (c% "x")] none none none none false []) none none [] []))
      .cross false none).resolve .empty =
    .ok (.join
      (.query (.mk (.select [.alias (.lit (some (.int 1)) (.simple .integer)) (c% "x")] none none none none false []) none none [] []))
      (.query (.mk (.select [.alias (.lit (some (.int 2)) (.simple .integer)) (c% "x")] none none none none false []) none none [] []))
      .cross false none, ⟨[⟨some (c% "x"), .query, .simple .integer⟩], []⟩) := rfl

/-- A subquery column against a table column of the same name makes merging raise. -/
theorem C33_mixed_sources_raise (n : Str) (t u : Ty) (tn : Str) (is js : List Str) :
    (⟨[⟨some n, .query, t⟩], is⟩ : Schema).merge ⟨[⟨some n, .table tn none none, u⟩], js⟩ = .error .notImplemented := by
  simp [Schema.merge, mergeCols, colIn, colEq, keyEq, bind, Except.bind]

/-! ## C34: columns without a table name -/

theorem filter_none {α : Type} {p : α → Bool} : ∀ {l : List α}, (∀ g ∈ l, p g ≠ true) → l.filter p = []
  | [], _ => rfl
  | a :: l, h => by
    have ha : p a = false := by simpa using h a List.mem_cons_self
    rw [List.filter_cons, ha]
    exact filter_none fun g hg => h g (List.mem_cons_of_mem _ hg)

theorem filter_only {p : Col → Bool} {q : Col → Prop} (hpq : ∀ f, p f = true ↔ q f) {f : Col} {fs : List Col}
    (h : TheOnly q f fs) : fs.filter p = [f] := by
  obtain ⟨l, r, rfl, hf, hl, hr⟩ := h
  rw [List.filter_append, List.filter_cons, if_pos ((hpq f).mpr hf),
    filter_none fun g hg h => hl g hg ((hpq g).mp h), filter_none fun g hg h => hr g hg ((hpq g).mp h)]
  rfl

theorem filter_several {p : Col → Bool} {q : Col → Prop} (hpq : ∀ f, p f = true ↔ q f) {fs : List Col}
    (h : Several q fs) : ∃ a b l, fs.filter p = a :: b :: l := by
  obtain ⟨l, f, m, g, r, rfl, hf, hg⟩ := h
  simp only [List.filter_append, List.filter_cons, if_pos ((hpq f).mpr hf), if_pos ((hpq g).mpr hg)]
  cases h1 : l.filter p with
  | nil =>
    cases h2 : m.filter p with
    | nil => exact ⟨_, _, _, rfl⟩
    | cons => exact ⟨_, _, _, rfl⟩
  | cons a l' =>
    cases l' with
    | nil => exact ⟨_, _, _, rfl⟩
    | cons => exact ⟨_, _, _, rfl⟩

theorem matches_none (ids : List Str) (n : Str) (f : Col) : fieldMatches ids n none f = true ↔ Called n f := by
  simp [fieldMatches, Called]

/-- **C34.** An unqualified column takes the type of the only column of that name in scope. -/
theorem C34_found (s : Schema) (n : Str) (ty : Ty) (f : Col) (h : TheOnly (Called n) f s.fields) :
    resolveFields s (.field n none ty) = .ok (.field n none f.ty) := by
  have : makeField s n none ty = .ok (.field n none f.ty) := by
    simp [makeField, filter_only (matches_none s.ids n) h, uniqueTy, bind, Except.bind]
  simp [resolveFields, walkExpr_field, resolveLeaf, this, bind, Except.bind, Expr_check_field]

/-- **C34.** When several columns in scope have the name, resolving raises. -/
theorem C34_ambiguous (s : Schema) (n : Str) (ty : Ty) (h : Several (Called n) s.fields) :
    resolveFields s (.field n none ty) = .error .assertion := by
  obtain ⟨a, b, l, hl⟩ := filter_several (matches_none s.ids n) h
  have : makeField s n none ty = .error .assertion := by
    simp [makeField, hl, uniqueTy, bind, Except.bind]
  simp [resolveFields, walkExpr_field, resolveLeaf, this, bind, Except.bind]

/-- **C34.** When no column in scope has the name, the column stays as it was. -/
theorem C34_missing (s : Schema) (n : Str) (ty : Ty) (h : ∀ f ∈ s.fields, ¬ Called n f) :
    resolveFields s (.field n none ty) = .ok (.field n none ty) := by
  have : makeField s n none ty = .ok (.field n none ty) := by
    simp [makeField, filter_none fun f hf h' => h f hf ((matches_none s.ids n f).mp h')]
  simp [resolveFields, walkExpr_field, resolveLeaf, this, bind, Except.bind, Expr_check_field]

theorem filter_isEmpty {p : Col → Bool} {q : Col → Prop} (hpq : ∀ f, p f = true ↔ q f) {fs : List Col}
    (h : (fs.filter p).isEmpty = true) : ∀ f ∈ fs, ¬ q f := by
  intro f hf hq
  have : f ∈ fs.filter p := List.mem_filter.mpr ⟨hf, (hpq f).mpr hq⟩
  rw [List.isEmpty_iff.mp h] at this
  cases this

theorem only_of_filter {p : Col → Bool} {q : Col → Prop} (hpq : ∀ f, p f = true ↔ q f) : ∀ {f : Col} {fs : List Col},
    fs.filter p = [f] → TheOnly q f fs
  | f, [], h => by cases h
  | f, g :: fs, h => by
    rw [List.filter_cons] at h
    split at h
    · rename_i hg
      obtain ⟨rfl, hn⟩ := List.cons.inj h
      exact ⟨[], fs, rfl, (hpq _).mp hg, by simp, filter_isEmpty hpq (by rw [hn]; rfl)⟩
    · rename_i hg
      obtain ⟨l, r, rfl, h1, h2, h3⟩ := only_of_filter hpq h
      refine ⟨g :: l, r, rfl, h1, ?_, h3⟩
      intro x hx
      rcases List.mem_cons.mp hx with rfl | hx
      · exact fun hq => hg ((hpq _).mpr hq)
      · exact h2 x hx

theorem uniqueTy_ok {fs : List Col} {t : Ty} (h : uniqueTy fs = .ok t) : ∃ f, fs = [f] ∧ f.ty = t := by
  cases fs with
  | nil => cases h
  | cons f fs =>
    cases fs with
    | nil => cases h; exact ⟨f, rfl, rfl⟩
    | cons => cases h

theorem makeField_resolved {s : Schema} {n : Str} {t : Option Str} {ty : Ty} {e : Expr}
    (h : makeField s n t ty = .ok e) : ∃ ty', e = .field n t ty' ∧ Resolved s ⟨n, t, ty⟩ ⟨n, t, ty'⟩ := by
  unfold makeField at h
  dsimp only at h
  split at h
  · rename_i he
    cases h
    refine ⟨ty, rfl, rfl, rfl, ?_⟩
    intro ht
    dsimp only at ht
    subst ht
    exact .inr ⟨filter_isEmpty (matches_none s.ids n) he, rfl⟩
  · cases t with
    | none =>
      obtain ⟨t', ht, h⟩ := bind_ok h
      cases h
      obtain ⟨f, hf, rfl⟩ := uniqueTy_ok ht
      exact ⟨_, rfl, rfl, rfl, fun _ => .inl ⟨f, only_of_filter (matches_none s.ids n) hf, rfl⟩⟩
    | some tab =>
      obtain ⟨t', ht, h⟩ := bind_ok h
      cases h
      exact ⟨_, rfl, rfl, rfl, fun h => by cases h⟩

/-- **C34.** The same holds for every column reference anywhere inside a resolved expression: the
references of the result are, one by one, those of the given expression with their types resolved. -/
theorem C34_everywhere (s : Schema) (e e' : Expr) (h : resolveFields s e = .ok e') :
    All2 (Resolved s) (colsExpr e) (colsExpr e') := by
  obtain ⟨x, hx, h⟩ := bind_ok h
  obtain ⟨y, _, h⟩ := bind_ok h
  cases h
  refine walkColsExpr ?_ ?_ e e' hx
  · intro e r h
    cases e with
    | field n t ty =>
      obtain ⟨ty', rfl, hr⟩ := makeField_resolved (Option.some.inj h)
      exact .cons hr .nil
    | fieldOf n b ty =>
      have h := Option.some.inj h
      unfold makeFieldOf at h
      split at h
      · cases h
      · split at h
        · cases h; exact .nil
        · cases h
    | star t ty => cases h; exact .nil
    | starOf b ty =>
      have h := Option.some.inj h
      unfold makeStarOf at h
      split at h
      · cases h
      · split at h
        · cases h; exact .nil
        · cases h
    | _ => cases h
  · intro n tn t h
    cases h

-- `x + 1` and `x + y` over a table with columns `x`, `y`
example : resolveFields ⟨[⟨some (c% "x"), .table (c% "t") none none, .simple .bigint⟩,
      ⟨some (c% "y"), .table (c% "t") none none, .simple .double⟩], [c% "t"]⟩
      (.bin .add (.field (c% "x") none .unknown) (.field (c% "y") none .unknown)) =
    .ok (.bin .add (.field (c% "x") none (.simple .bigint)) (.field (c% "y") none (.simple .double))) := rfl
-- ambiguous
example : resolveFields ⟨[⟨some (c% "x"), .table (c% "t") none none, .simple .bigint⟩,
      ⟨some (c% "x"), .table (c% "u") none none, .simple .double⟩], [c% "t", c% "u"]⟩
      (.not (.isNull (.field (c% "x") none .unknown))) = .error .assertion := rfl

/-! ## C35: columns with a table name -/

theorem matches_some (ids : List Str) (n t : Str) (h : t ∈ ids) (f : Col) : fieldMatches ids n (some t) f = true := by
  simp [fieldMatches, h]

theorem filter_all {α : Type} {p : α → Bool} : ∀ {l : List α}, (∀ g ∈ l, p g = true) → l.filter p = l
  | [], _ => rfl
  | a :: l, h => by
    rw [List.filter_cons, if_pos (h a List.mem_cons_self), filter_all fun g hg => h g (List.mem_cons_of_mem _ hg)]

/-- **C35.** A qualified column takes the type of the column of its table, if that table has just one
column.  Missing: tables with several columns, for which resolving raises (`C35_two_columns_raise`), and
the requirement that the column has the name asked for, which is not checked (`C35_name_ignored`). -/
theorem C35_found_partial (s : Schema) (n t : Str) (ty : Ty) (f : Col) (hk : t ∈ s.ids)
    (h : TheOnly (Of t) f s.fields) :
    resolveFields s (.field n (some t) ty) = .ok (.field n (some t) f.ty) := by
  have hne : s.fields.isEmpty = false := by
    obtain ⟨l, r, hl, _⟩ := h
    rw [hl]; simp
  have : makeField s n (some t) ty = .ok (.field n (some t) f.ty) := by
    simp only [makeField, filter_all fun g _ => matches_some s.ids n t hk g, hne]
    rw [filter_only (q := Of t) (fun g => by simp [Of]) h]
    rfl
  simp [resolveFields, walkExpr_field, resolveLeaf, this, bind, Except.bind, Expr_check_field]

/-- **C35.** A column of a table that is not in scope stays as it was. -/
theorem C35_unknown_table (s : Schema) (n t : Str) (ty : Ty) (hk : t ∉ s.ids) :
    resolveFields s (.field n (some t) ty) = .ok (.field n (some t) ty) := by
  have : makeField s n (some t) ty = .ok (.field n (some t) ty) := by
    have : s.fields.filter (fieldMatches s.ids n (some t)) = [] :=
      filter_none fun f _ => by simp [fieldMatches, hk]
    simp [makeField, this]
  simp [resolveFields, walkExpr_field, resolveLeaf, this, bind, Except.bind, Expr_check_field]

/-- Any table of two or more columns makes its qualified columns unresolvable. -/
theorem C35_two_columns_raise (s : Schema) (n t : Str) (ty : Ty) (hk : t ∈ s.ids) (h : Several (Of t) s.fields) :
    resolveFields s (.field n (some t) ty) = .error .assertion := by
  have hne : s.fields.isEmpty = false := by
    obtain ⟨l, f, m, g, r, hl, _⟩ := h
    rw [hl]; simp
  obtain ⟨a, b, l, hl⟩ := filter_several (p := fun f : Col => f.source.identifier == some t) (q := Of t)
    (fun g => by simp [Of]) h
  have : makeField s n (some t) ty = .error .assertion := by
    simp only [makeField, filter_all fun g _ => matches_some s.ids n t hk g, hne, hl]
    rfl
  simp [resolveFields, walkExpr_field, resolveLeaf, this, bind, Except.bind]

/-- `t.y` gets the type of `t.x` when `x` is the only column of `t`. -/
theorem C35_name_ignored :
    resolveFields ⟨[⟨some (c% "x"), .table (c% "t") none none, .simple .bigint⟩], [c% "t"]⟩
      (.field (c% "y") (some (c% "t")) .unknown) = .ok (.field (c% "y") (some (c% "t")) (.simple .bigint)) := rfl

-- `t.x` in a join of the one-column tables `t` and `u`
example : TheOnly (Of (c% "t")) ⟨some (c% "x"), .table (c% "t") none none, .simple .bigint⟩
    [⟨some (c% "x"), .table (c% "t") none none, .simple .bigint⟩,
     ⟨some (c% "x"), .table (c% "u") none none, .simple .double⟩] :=
  ⟨[], _, rfl, rfl, by simp, by simp [Of, Key.identifier]⟩

/-! ## C50: resolving changes types only -/

theorem resolveLeaf_untyped {s : Schema} {e r : Expr} (h : resolveLeaf s e = some (.ok r)) :
    mapExpr forgetNode forgetTable r = mapExpr forgetNode forgetTable e := by
  cases e with
  | field n t ty =>
    obtain ⟨ty', rfl, _⟩ := makeField_resolved (Option.some.inj h)
    rfl
  | fieldOf n b ty =>
    have h := Option.some.inj h
    unfold makeFieldOf at h
    split at h
    · cases h
    · split at h
      · cases h; rfl
      · cases h
  | star t ty => cases h; rfl
  | starOf b ty =>
    have h := Option.some.inj h
    unfold makeStarOf at h
    split at h
    · cases h
    · split at h
      · cases h; rfl
      · cases h
  | _ => cases h

/-- **C50.** Resolving an expression changes nothing but the types of columns and stars. -/
theorem C50_expression (s : Schema) (e e' : Expr) (h : resolveFields s e = .ok e') :
    mapExpr forgetNode forgetTable e' = mapExpr forgetNode forgetTable e := by
  obtain ⟨x, hx, h⟩ := bind_ok h
  obtain ⟨y, _, h⟩ := bind_ok h
  cases h
  exact walkMapExpr (fun _ _ h => resolveLeaf_untyped h) (fun _ _ h => by cases h) e e' hx

theorem C50_expressions (s : Schema) : ∀ (es es' : List Expr), resolveFieldsL s es = .ok es' →
    mapExprs forgetNode forgetTable es' = mapExprs forgetNode forgetTable es
  | [], es', h => by cases h; rfl
  | e :: es, es', h => by
    obtain ⟨x, hx, h⟩ := bind_ok h
    obtain ⟨y, hy, h⟩ := bind_ok h
    cases h
    show _ :: _ = _ :: _
    rw [C50_expression s e x hx, C50_expressions s es y hy]

theorem tableResolve_forget (s : Schema) (t : TableRef) : forgetTable (t.resolve s).1 = forgetTable t := by
  unfold TableRef.resolve
  split <;> rfl

theorem selectOut_ok {sch : Schema} {items : List Expr} {p : List Expr × Schema} (h : selectOut sch items = .ok p) :
    ∃ cs, resolveFieldsL sch items = .ok p.1 ∧ selectCols p.1 = .ok cs ∧ p.2 = ⟨cs, []⟩ := by
  obtain ⟨x, hx, h⟩ := bind_ok h
  obtain ⟨y, hy, h⟩ := bind_ok h
  cases h
  exact ⟨y, hx, hy, rfl⟩

mutual
/-- **C50.** Resolving a query, a relation or a named query changes nothing but the types of columns and
stars and the columns the tables remember. -/
theorem C50_query (s : Schema) : ∀ (q : Query) (p : Query × Schema), q.resolve s = .ok p →
    mapQuery forgetNode forgetTable p.1 = mapQuery forgetNode forgetTable q
  | .mk b off lim ob w, p, h => by
    rw [Query_resolve_mk] at h
    obtain ⟨pw, hw, h⟩ := bind_ok h
    obtain ⟨r, hr, h⟩ := bind_ok h
    cases h
    have h1 := C50_body s pw.2 b r hr
    have h2 : mapNameds forgetNode forgetTable pw.1 = mapNameds forgetNode forgetTable w := by
      unfold pickWith at hw
      split at hw
      · exact C50_with .empty w pw hw
      · cases hw; rfl
    show Query.mk _ _ _ _ _ = Query.mk _ _ _ _ _
    rw [h1, h2]
theorem C50_body (s ws : Schema) : ∀ (b : QBody) (p : QBody × Schema), b.resolve s ws = .ok p →
    mapQBody forgetNode forgetTable p.1 = mapQBody forgetNode forgetTable b
  | .select items fr wh gb hv d wins, p, h => by
    rw [QBody_resolve_select] at h
    obtain ⟨r, hr, h⟩ := bind_ok h
    cases h
    obtain ⟨h1, h2⟩ := C50_from s ws items fr r hr
    show QBody.select _ _ _ _ _ _ _ = QBody.select _ _ _ _ _ _ _
    rw [h1, h2]
  | .set k l r d, p, h => by
    rw [QBody_resolve_set] at h
    obtain ⟨x, hx, h⟩ := bind_ok h
    obtain ⟨y, hy, h⟩ := bind_ok h
    cases h
    show QBody.set _ _ _ _ = QBody.set _ _ _ _
    rw [C50_query .empty l x hx, C50_query .empty r y hy]
  | .table t, p, h => by
    rw [QBody_resolve_table] at h
    cases h
    show QBody.table _ = QBody.table _
    rw [tableResolve_forget]
  | .values es, p, h => by
    rw [QBody_resolve_values] at h
    cases h
theorem C50_from (s ws : Schema) (items : List Expr) : ∀ (fr : Option Rel) (p : Option Rel × List Expr × Schema),
    Rel.resolveFrom s ws items fr = .ok p →
    mapRelOpt forgetNode forgetTable p.1 = mapRelOpt forgetNode forgetTable fr ∧
    mapExprs forgetNode forgetTable p.2.1 = mapExprs forgetNode forgetTable items
  | none, p, h => by
    rw [Rel_resolveFrom_none] at h
    obtain ⟨x, hx, h⟩ := bind_ok h
    cases h
    exact ⟨rfl, rfl⟩
  | some r, p, h => by
    rw [Rel_resolveFrom_some] at h
    obtain ⟨x, hx, h⟩ := bind_ok h
    obtain ⟨y, hy, h⟩ := bind_ok h
    obtain ⟨z, hz, h⟩ := bind_ok h
    cases h
    obtain ⟨cs, h1, -, -⟩ := selectOut_ok hz
    refine ⟨?_, C50_expressions _ items _ h1⟩
    show some _ = some _
    rw [C50_relation _ r y hy]
theorem C50_with (s : Schema) : ∀ (w : List Named) (p : List Named × Schema), Named.resolveW s w = .ok p →
    mapNameds forgetNode forgetTable p.1 = mapNameds forgetNode forgetTable w
  | [], p, h => by
    rw [Named_resolveW_nil] at h
    cases h
    rfl
  | n :: ns, p, h => by
    rw [Named_resolveW_cons] at h
    obtain ⟨x, hx, h⟩ := bind_ok h
    obtain ⟨y, hy, h⟩ := bind_ok h
    obtain ⟨z, hz, h⟩ := bind_ok h
    cases h
    show _ :: _ = _ :: _
    rw [C50_named s n x hx, C50_with y ns z hz]
theorem C50_named (s : Schema) : ∀ (n : Named) (p : Named × Schema), n.resolve s = .ok p →
    mapNamed forgetNode forgetTable p.1 = mapNamed forgetNode forgetTable n
  | .mk r a cols, p, h => by
    rw [Named_resolve_mk] at h
    obtain ⟨x, hx, h⟩ := bind_ok h
    obtain ⟨y, hy, h⟩ := bind_ok h
    cases h
    show Named.mk _ _ _ = Named.mk _ _ _
    rw [C50_relation _ r x hx]
theorem C50_relation (s : Schema) : ∀ (r : Rel) (p : Rel × Schema), r.resolve s = .ok p →
    mapRel forgetNode forgetTable p.1 = mapRel forgetNode forgetTable r
  | .table t, p, h => by
    rw [Rel_resolve_table] at h
    cases h
    show Rel.table _ = Rel.table _
    rw [tableResolve_forget]
  | .query q, p, h => by
    rw [Rel_resolve_query] at h
    obtain ⟨x, hx, h⟩ := bind_ok h
    cases h
    show Rel.query _ = Rel.query _
    rw [C50_query s q x hx]
  | .aliased n, p, h => by
    rw [Rel_resolve_aliased] at h
    obtain ⟨x, hx, h⟩ := bind_ok h
    cases h
    show Rel.aliased _ = Rel.aliased _
    rw [C50_named s n x hx]
  | .join l r t nat cr, p, h => by
    rw [Rel_resolve_join] at h
    obtain ⟨x, hx, h⟩ := bind_ok h
    obtain ⟨ex, _, h⟩ := bind_ok h
    obtain ⟨y, hy, h⟩ := bind_ok h
    obtain ⟨m, _, h⟩ := bind_ok h
    cases h
    show Rel.join _ _ _ _ _ = Rel.join _ _ _ _ _
    rw [C50_relation _ l x hx, C50_relation _ r y hy]
  | .unnest as o, p, h => by
    rw [Rel_resolve_unnest] at h
    obtain ⟨x, hx, h⟩ := bind_ok h
    obtain ⟨y, hy, h⟩ := bind_ok h
    cases h
    show Rel.unnest _ _ = Rel.unnest _ _
    rw [C50_expressions s as x hx]
  | .lateral q, p, h => by
    rw [Rel_resolve_lateral] at h
    obtain ⟨x, hx, h⟩ := bind_ok h
    cases h
    show Rel.lateral _ = Rel.lateral _
    rw [C50_query s q x hx]
  | .sample r t pc, p, h => by
    rw [Rel_resolve_sample] at h
    obtain ⟨x, hx, h⟩ := bind_ok h
    cases h
    show Rel.sample _ _ _ = Rel.sample _ _ _
    rw [C50_relation s r x hx]
end

/-- **C50.** Resolving against the empty schema changes nothing but the types of stars.
Missing: stars, whose type becomes the empty row (`C50_star_empty`). -/
theorem C50_empty_partial (e e' : Expr) (h : resolveFields .empty e = .ok e') :
    mapExpr forgetStar id e' = mapExpr forgetStar id e := by
  obtain ⟨x, hx, h⟩ := bind_ok h
  obtain ⟨y, _, h⟩ := bind_ok h
  cases h
  refine walkMapExpr ?_ (fun _ _ h => by cases h) e e' hx
  intro e r h
  cases e with
  | field n t ty => cases h; rfl
  | fieldOf n b ty =>
    have h := Option.some.inj h
    unfold makeFieldOf at h
    split at h
    · cases h
    · cases h; rfl
  | star t ty => cases h; rfl
  | starOf b ty =>
    have h := Option.some.inj h
    unfold makeStarOf at h
    split at h
    · cases h
    · cases h; rfl
  | _ => cases h

/-- A star resolved against the empty schema gets the type of the empty row. -/
theorem C50_star_empty : resolveFields .empty (.star none .unknown) = .ok (.star none (.row [])) := rfl

theorem chosen_filter (t : Str) : ∀ fs : List Col,
    Chosen (Of t) fs (fs.filter (·.source.identifier == some t))
  | [] => .nil
  | f :: fs => by
    rw [List.filter_cons]
    split
    · next h => exact .take (by simpa [Of] using h) (chosen_filter t fs)
    · next h => exact .skip (by simpa [Of] using h) (chosen_filter t fs)

/-- **C36.** Resolving gives `t.*` the row of the types of exactly the columns of `t`, in their order, and
`*` that of all columns. -/
theorem C36_star_type (s : Schema) (ty : Ty) :
    resolveFields s (.star none ty) = .ok (.star none (.row (s.fields.map (·.ty)))) ∧
    ∀ t, ∃ gs, Chosen (Of t) s.fields gs ∧
      resolveFields s (.star (some t) ty) = .ok (.star (some t) (.row (gs.map (·.ty)))) :=
  ⟨rfl, fun t => ⟨_, chosen_filter t s.fields, rfl⟩⟩

-- two relations with a column each: `t.*` has one column
example : resolveFields ⟨[⟨some (c% "x"), .table (c% "t") none none, .bigint⟩,
      ⟨some (c% "y"), .table (c% "u") none none, .double⟩], [c% "t", c% "u"]⟩ (.star (some (c% "u")) .unknown) =
    .ok (.star (some (c% "u")) (.row [.double])) := rfl

-- `SELECT x FROM t`, `t` having the column `x`
example : (Query.mk (.select [.field (c% "x") none .unknown]
      (some (.table ⟨c% "t", none, none, [⟨some (c% "x"), .table (c% "t") none none, .simple .bigint⟩]⟩))
      none none none false []) none none [] []).resolve .empty =
    .ok (.mk (.select [.field (c% "x") none (.simple .bigint)]
      (some (.table ⟨c% "t", none, none, [⟨some (c% "x"), .table (c% "t") none none, .simple .bigint⟩]⟩))
      none none none false []) none none [] [], ⟨[⟨some (c% "x"), .query, .simple .bigint⟩], []⟩) := rfl

/-! ## C36: output of a SELECT -/

theorem identifier_eq (e : Expr) : e.identifier = outputName e := by cases e <;> rfl

theorem outputName_forget (e : Expr) : outputName (mapExpr forgetNode forgetTable e) = outputName e := by
  cases e with
  | field n t ty => rfl
  | fieldOf n b ty => rfl
  | _ => rfl

theorem selectCols_spec : ∀ {es : List Expr} {cs : List Col}, selectCols es = .ok cs →
    All2 (fun e c => c.name = outputName e ∧ c.source = .query ∧ e.check = .ok c.ty) es cs
  | [], cs, h => by cases h; exact .nil
  | e :: es, cs, h => by
    obtain ⟨t, ht, h⟩ := bind_ok h
    obtain ⟨r, hr, h⟩ := bind_ok h
    cases h
    exact .cons ⟨identifier_eq e, rfl, ht⟩ (selectCols_spec hr)

theorem resolveFieldsL_spec (s : Schema) : ∀ {es es' : List Expr}, resolveFieldsL s es = .ok es' →
    All2 (fun e e' => resolveFields s e = .ok e') es es'
  | [], es', h => by cases h; exact .nil
  | e :: es, es', h => by
    obtain ⟨x, hx, h⟩ := bind_ok h
    obtain ⟨y, hy, h⟩ := bind_ok h
    cases h
    exact .cons hx (resolveFieldsL_spec s hy)

theorem All2.comp {α β γ : Type} {R : α → β → Prop} {S : β → γ → Prop} {T : α → γ → Prop}
    (hT : ∀ a b c, R a b → S b c → T a c) : ∀ {as : List α} {bs : List β} {cs : List γ},
    All2 R as bs → All2 S bs cs → All2 T as cs := by
  intro as bs cs h
  induction h generalizing cs with
  | nil => intro h'; cases h'; exact .nil
  | cons h1 _ ih => intro h'; cases h' with
    | cons h2 h3 => exact .cons (hT _ _ _ h1 h2) (ih h3)

/-- **C36.** The schema of a resolved SELECT has no relation names and one column per select item, in
order, with the item's name, and with the type of the item after resolving it against the schema of the
FROM clause.  Missing: stars are not expanded into columns (`C36_star_not_expanded`). -/
theorem C36_select_partial (s ws : Schema) (items : List Expr) (r : Rel) (p : Option Rel × List Expr × Schema)
    (h : Rel.resolveFrom s ws items (some r) = .ok p) :
    ∃ (r' : Rel) (from_ : Schema), (∃ ex, s.merge ws = .ok ex ∧ r.resolve (prune r ex) = .ok (r', from_)) ∧
      p.2.2.ids = [] ∧
      All2 (fun e c => c.name = outputName e ∧ c.source = .query ∧
        ∃ e', resolveFields from_ e = .ok e' ∧ e'.check = .ok c.ty) items p.2.2.fields := by
  rw [Rel_resolveFrom_some] at h
  obtain ⟨x, hx, h⟩ := bind_ok h
  obtain ⟨y, hy, h⟩ := bind_ok h
  obtain ⟨z, hz, h⟩ := bind_ok h
  cases h
  obtain ⟨cs, h1, h2, h3⟩ := selectOut_ok hz
  refine ⟨y.1, y.2, ⟨x, hx, hy⟩, ?_, ?_⟩
  · show z.2.ids = []
    rw [h3]
  · show All2 _ items z.2.fields
    rw [h3]
    refine All2.comp ?_ (resolveFieldsL_spec _ h1) (selectCols_spec h2)
    rintro a b c hab ⟨hn, hs, ht⟩
    refine ⟨?_, hs, b, hab, ht⟩
    rw [hn, ← outputName_forget b, C50_expression _ _ _ hab, outputName_forget]

/-- **C36.** The same without a FROM clause: the items' own types. -/
theorem C36_no_from (s ws : Schema) (items : List Expr) (p : Option Rel × List Expr × Schema)
    (h : Rel.resolveFrom s ws items none = .ok p) :
    p.1 = none ∧ p.2.1 = items ∧ p.2.2.ids = [] ∧
    All2 (fun e c => c.name = outputName e ∧ c.source = .query ∧ e.check = .ok c.ty) items p.2.2.fields := by
  rw [Rel_resolveFrom_none] at h
  obtain ⟨x, hx, h⟩ := bind_ok h
  cases h
  exact ⟨rfl, rfl, rfl, selectCols_spec hx⟩

/-- **C36.** A SELECT query's schema is the one described above, for the query's own WITH clause. -/
theorem C36_query (s : Schema) (items : List Expr) (fr : Option Rel) (wh : Option Expr) (gb : Option GroupBy)
    (hv : Option Expr) (d : Bool) (wins : List (Str × Win)) (off lim : Option Int) (ob : List Ord) (w : List Named)
    (p : Query × Schema) (h : (Query.mk (.select items fr wh gb hv d wins) off lim ob w).resolve s = .ok p) :
    ∃ (w' : List Named) (ws : Schema) (r : Option Rel × List Expr × Schema),
      Rel.resolveFrom s ws items fr = .ok r ∧ p.2 = r.2.2 ∧
      p.1 = .mk (.select r.2.1 r.1 wh gb hv d wins) off lim ob w' ∧
      ((fr.isSome = true ∧ Named.resolveW .empty w = .ok (w', ws)) ∨ (fr = none ∧ w' = w ∧ ws = .empty)) := by
  rw [Query_resolve_mk] at h
  obtain ⟨pw, hw, h⟩ := bind_ok h
  obtain ⟨r, hr, h⟩ := bind_ok h
  rw [QBody_resolve_select] at hr
  obtain ⟨r2, hr2, hr⟩ := bind_ok hr
  cases hr
  cases h
  refine ⟨pw.1, pw.2, r2, hr2, rfl, rfl, ?_⟩
  cases fr with
  | none => cases hw; exact .inr ⟨rfl, rfl, rfl⟩
  | some f => exact .inl ⟨rfl, hw⟩

/-- `SELECT * FROM t` with two columns has one unnamed column of a row type instead of two columns. -/
theorem C36_star_not_expanded :
    Rel.resolveFrom .empty .empty [.star none .unknown]
      (some (.table ⟨c% "t", none, none, [⟨some (c% "x"), .table (c% "t") none none, .simple .bigint⟩,
        ⟨some (c% "y"), .table (c% "t") none none, .simple .double⟩]⟩)) =
    .ok (some (.table ⟨c% "t", none, none, [⟨some (c% "x"), .table (c% "t") none none, .simple .bigint⟩,
        ⟨some (c% "y"), .table (c% "t") none none, .simple .double⟩]⟩),
      [.star none (.row [.simple .bigint, .simple .double])],
      ⟨[⟨none, .query, .row [.simple .bigint, .simple .double]⟩], []⟩) := rfl

/-! ## C38: aliases of relations -/

theorem renameCols_none (k : Key) : ∀ (i : Nat) (fs : List Col), renameCols k [] i fs =
    .ok (fs.map fun f => ⟨f.name, k, f.ty⟩)
  | _, [] => rfl
  | i, f :: fs => by
    simp [renameCols, renameCols_none k (i + 1) fs, bind, Except.bind]

theorem renameCols_some (k : Key) (as : List Str) (ha : as ≠ []) : ∀ (i : Nat) (fs : List Col) (out : List Col),
    renameCols k as i fs = .ok out →
    i + fs.length ≤ max as.length i ∧ out = List.zipWith (fun a f => ⟨some a, k, f.ty⟩) (as.drop i) fs
  | i, [], out, h => by cases h; simp; omega
  | i, f :: fs, out, h => by
    rw [renameCols, if_neg (by simpa using ha)] at h
    obtain ⟨n, hn, h⟩ := bind_ok h
    obtain ⟨r, hr, h⟩ := bind_ok h
    cases h
    obtain ⟨h1, h2⟩ := renameCols_some k as ha (i + 1) fs r hr
    cases hi : as[i]? with
    | none => rw [hi] at hn; cases hn
    | some a =>
      rw [hi] at hn
      cases hn
      obtain ⟨hlt, rfl⟩ := List.getElem?_eq_some_iff.mp hi
      refine ⟨by simp only [List.length_cons]; omega, ?_⟩
      rw [List.drop_eq_getElem_cons hlt, h2]
      rfl

theorem renameCols_few (k : Key) (as : List Str) (ha : as ≠ []) : ∀ (i : Nat) (fs : List Col),
    as.length < i + fs.length → i ≤ as.length → renameCols k as i fs = .error .indexError
  | i, [], h, hi => by simp at h; omega
  | i, f :: fs, h, hi => by
    rw [renameCols, if_neg (by simpa using ha)]
    by_cases hlt : i < as.length
    · rw [List.getElem?_eq_getElem hlt]
      have := renameCols_few k as ha (i + 1) fs (by simp only [List.length_cons] at h; omega) hlt
      simp [this, bind, Except.bind]
    · rw [List.getElem?_eq_none (by omega)]
      rfl

/-- **C38.** A resolved aliased relation without a column list has the columns of the relation beneath,
in order and with their names and types, all tied to the alias; its only relation name is the alias. -/
theorem C38_alias (s : Schema) (r : Rel) (a : Str) (p : Named × Schema)
    (h : (Named.mk r a []).resolve s = .ok p) :
    ∃ r' inner, r.resolve (prune r s) = .ok (r', inner) ∧ p.1 = .mk r' a [] ∧ p.2.ids = [a] ∧
      p.2.fields.map (fun f => (f.name, f.ty)) = inner.fields.map (fun f => (f.name, f.ty)) ∧
      ∀ f ∈ p.2.fields, Of a f := by
  rw [Named_resolve_mk] at h
  obtain ⟨x, hx, h⟩ := bind_ok h
  obtain ⟨y, hy, h⟩ := bind_ok h
  cases h
  rw [renameCols_none] at hy
  cases hy
  refine ⟨x.1, x.2, hx, rfl, rfl, ?_, ?_⟩
  · simp [List.map_map, Function.comp_def]
  · intro f hf
    obtain ⟨g, _, rfl⟩ := List.mem_map.mp hf
    rfl

/-- **C38.** With a column list the columns take the listed names in order; every column of the
relation beneath has a name in the list. -/
theorem C38_columns (s : Schema) (r : Rel) (a : Str) (cols : List Str) (hc : cols ≠ []) (p : Named × Schema)
    (h : (Named.mk r a cols).resolve s = .ok p) :
    ∃ r' inner, r.resolve (prune r s) = .ok (r', inner) ∧ p.1 = .mk r' a cols ∧ p.2.ids = [a] ∧
      inner.fields.length ≤ cols.length ∧
      p.2.fields.map (fun f => (f.name, f.ty)) = List.zip (cols.map some) (inner.fields.map (·.ty)) ∧
      p.2.fields.length = inner.fields.length ∧
      ∀ f ∈ p.2.fields, Of a f := by
  rw [Named_resolve_mk] at h
  obtain ⟨x, hx, h⟩ := bind_ok h
  obtain ⟨y, hy, h⟩ := bind_ok h
  cases h
  obtain ⟨h1, h2⟩ := renameCols_some _ cols hc 0 _ _ hy
  rw [List.drop_zero] at h2
  have hle : x.2.fields.length ≤ cols.length := by simpa using h1
  refine ⟨x.1, x.2, hx, rfl, rfl, hle, ?_, ?_, ?_⟩
  · show y.map _ = _
    rw [h2, List.map_zipWith, List.zip_map, List.zip]
    simp [List.map_zipWith]
  · show y.length = _
    rw [h2, List.length_zipWith]
    omega
  · intro f hf
    have hf : f ∈ y := hf
    rw [h2] at hf
    rw [← List.map_uncurry_zip_eq_zipWith] at hf
    obtain ⟨g, _, rfl⟩ := List.mem_map.mp hf
    rfl

/-- **C38.** A column list shorter than the relation makes resolving raise. -/
theorem C38_too_few (s : Schema) (r : Rel) (a : Str) (cols : List Str) (hc : cols ≠ []) (r' : Rel) (inner : Schema)
    (hr : r.resolve (prune r s) = .ok (r', inner)) (hlen : cols.length < inner.fields.length) :
    (Named.mk r a cols).resolve s = .error .indexError := by
  rw [Named_resolve_mk, hr]
  show (do let fs ← renameCols _ cols 0 inner.fields; _) = _
  rw [renameCols_few _ cols hc 0 _ (by omega) (by omega)]
  rfl

-- `t AS u (p, q)` renames both columns
example : (Named.mk (.table ⟨c% "t", none, none, [⟨some (c% "x"), .table (c% "t") none none, .simple .bigint⟩,
        ⟨some (c% "y"), .table (c% "t") none none, .simple .double⟩]⟩) (c% "u") [c% "p", c% "q"]).resolve .empty =
    .ok (.mk (.table ⟨c% "t", none, none, [⟨some (c% "x"), .table (c% "t") none none, .simple .bigint⟩,
        ⟨some (c% "y"), .table (c% "t") none none, .simple .double⟩]⟩) (c% "u") [c% "p", c% "q"],
      ⟨[⟨some (c% "p"), .aliased (.table (c% "t") none none) (c% "u") [c% "p", c% "q"], .simple .bigint⟩,
        ⟨some (c% "q"), .aliased (.table (c% "t") none none) (c% "u") [c% "p", c% "q"], .simple .double⟩], [c% "u"]⟩) := rfl

/-! ## C37: scopes -/

/-- **C37.** A named subquery is resolved without the columns around it. -/
theorem C37_subquery_closed (s t : Schema) (q : Query) (a : Str) (cols : List Str) :
    (Named.mk (.query q) a cols).resolve s = (Named.mk (.query q) a cols).resolve t := rfl

/-- **C37.** So is a subquery standing alone in FROM: whatever surrounds the SELECT and whatever its WITH
clause defines, the result is the same (if the surrounding schemas can be merged at all). -/
theorem C37_from_subquery_closed (s ws s' ws' m m' : Schema) (items : List Expr) (q : Query)
    (h : s.merge ws = .ok m) (h' : s'.merge ws' = .ok m') :
    Rel.resolveFrom s ws items (some (.query q)) = Rel.resolveFrom s' ws' items (some (.query q)) := by
  rw [Rel_resolveFrom_some, Rel_resolveFrom_some, h, h']
  rfl

/-- **C37.** From outside an aliased SELECT only its own output is visible: one column per select item,
under the item's name, and the alias as relation name. -/
theorem C37_output_only (s : Schema) (items : List Expr) (fr : Option Rel) (wh : Option Expr) (gb : Option GroupBy)
    (hv : Option Expr) (d : Bool) (wins : List (Str × Win)) (off lim : Option Int) (ob : List Ord) (w : List Named)
    (a : Str) (p : Named × Schema)
    (h : (Named.mk (.query (.mk (.select items fr wh gb hv d wins) off lim ob w)) a []).resolve s = .ok p) :
    p.2.ids = [a] ∧ p.2.fields.map (·.name) = items.map outputName ∧ ∀ f ∈ p.2.fields, Of a f := by
  obtain ⟨r', inner, hr, -, hids, hf, hof⟩ := C38_alias s _ a p h
  refine ⟨hids, ?_, hof⟩
  rw [Rel_resolve_query] at hr
  obtain ⟨q', hq, hr⟩ := bind_ok hr
  cases hr
  obtain ⟨w', ws, r, hfrom, hsch, -, -⟩ := C36_query _ _ _ _ _ _ _ _ _ _ _ _ _ hq
  have hnames : q'.2.fields.map (·.name) = items.map outputName := by
    rw [hsch]
    have key : ∀ {P : Expr → Col → Prop}, (∀ e c, P e c → c.name = outputName e) → ∀ {es : List Expr} {cs : List Col},
        All2 P es cs → cs.map (·.name) = es.map outputName := by
      intro P hP es cs h
      induction h with
      | nil => rfl
      | cons h1 _ ih => simp only [List.map_cons, ih, hP _ _ h1]
    cases fr with
    | none =>
      obtain ⟨-, -, -, h3⟩ := C36_no_from _ _ _ _ hfrom
      exact key (fun _ _ h => h.1) h3
    | some x =>
      obtain ⟨_, _, _, _, h3⟩ := C36_select_partial _ _ _ _ _ hfrom
      exact key (fun _ _ h => h.1) h3
  have : p.2.fields.map (·.name) = q'.2.fields.map (·.name) := by
    have := congrArg (List.map Prod.fst) hf
    simpa [List.map_map, Function.comp_def] using this
  rw [this, hnames]

/-- **C37.** The names of a WITH clause and their columns are in the schema its body is resolved
against; each is resolved against the schema of those before it.  Partial: what a definition itself reads from that
schema is not said here, since its query does not see the earlier names (the witnesses below). -/
theorem C37_with_visible_partial : ∀ (w : List Named) (s : Schema) (p : List Named × Schema), Named.resolveW s w = .ok p →
    (∀ f ∈ s.fields, f ∈ p.2.fields) ∧ (∀ i ∈ s.ids, i ∈ p.2.ids) ∧
    ∀ n ∈ w, ∃ (w₁ w₂ w₁' : List Named) (s' : Schema) (r : Named × Schema), w = w₁ ++ n :: w₂ ∧
      Named.resolveW s w₁ = .ok (w₁', s') ∧ n.resolve s' = .ok r ∧
      (∀ f ∈ r.2.fields, f ∈ p.2.fields) ∧ ∀ i ∈ r.2.ids, i ∈ p.2.ids
  | [], s, p, h => by
    rw [Named_resolveW_nil] at h
    cases h
    exact ⟨fun _ h => h, fun _ h => h, by simp⟩
  | n :: ns, s, p, h => by
    rw [Named_resolveW_cons] at h
    obtain ⟨x, hx, h⟩ := bind_ok h
    obtain ⟨m, hm, h⟩ := bind_ok h
    obtain ⟨z, hz, h⟩ := bind_ok h
    cases h
    obtain ⟨h1, h2, h3⟩ := C37_with_visible_partial ns m z hz
    have hc := C33_contains s x.2 m hm
    have hi := (C33_merge s x.2 m hm).2
    refine ⟨fun f hf => h1 f ((hc f).mpr (.inl hf)), fun i hi' => h2 i ((hi i).mpr (.inl hi')), ?_⟩
    intro k hk
    rcases List.mem_cons.mp hk with rfl | hk
    · exact ⟨[], ns, [], s, x, rfl, rfl, hx, fun f hf => h1 f ((hc f).mpr (.inr hf)), fun i hi' => h2 i ((hi i).mpr (.inr hi'))⟩
    · obtain ⟨w₁, w₂, w₁', s', r, rfl, h5, h6⟩ := h3 k hk
      refine ⟨n :: w₁, w₂, x.1 :: w₁', s', r, rfl, ?_, h6⟩
      rw [Named_resolveW_cons, hx]
      show (do let m ← s.merge x.2; _) = _
      rw [hm]
      show (do let p' ← Named.resolveW m w₁; _) = _
      rw [h5]
      rfl

/-- **C37.** A table in FROM whose name is defined in the surrounding schema takes exactly the columns
tied to that name. -/
theorem C37_table_in_scope (s : Schema) (t : TableRef) (h : t.name ∈ s.ids) :
    ∃ p, (Rel.table t).resolve s = .ok p ∧ p.2.ids = [t.name] ∧
      ∀ f, f ∈ p.2.fields ↔ f ∈ s.fields ∧ Of t.name f := by
  refine ⟨_, Rel_resolve_table s t, ?_, ?_⟩
  · simp [TableRef.resolve, h]
  · intro f
    simp [TableRef.resolve, h, Of]

/-- **C37.** A table not defined there keeps its own columns. -/
theorem C37_table_not_in_scope (s : Schema) (t : TableRef) (h : t.name ∉ s.ids) :
    (Rel.table t).resolve s = .ok (.table t, ⟨t.cols, [t.name]⟩) := by
  rw [Rel_resolve_table]
  simp [TableRef.resolve, h]

/-- `SELECT 1 AS x` -/
def oneX : Query :=
  .mk (.select [.alias (.lit (some (.int 1)) (.simple .integer)) (c% "x")] none none none none false []) none none [] []
/-- `SELECT x FROM <r>` -/
def selX (r : Rel) (w : List Named) : Query :=
  .mk (.select [.field (c% "x") none .unknown] (some r) none none none false []) none none [] w
def tab (n : Str) : Rel := .table ⟨n, none, none, []⟩

-- `WITH a AS (SELECT 1 AS x) SELECT x FROM a`: the body sees the definition
example : ((selX (tab (c% "a")) [.mk (.query oneX) (c% "a") []]).resolve .empty).map (·.2) =
    .ok ⟨[⟨some (c% "x"), .query, .simple .integer⟩], []⟩ := rfl

/-- `WITH a AS (SELECT 1 AS x), b AS (SELECT x FROM a) SELECT x FROM b`: a definition does not see the
ones before it, so the type stays unknown. -/
theorem C37_with_not_visible_to_later :
    ((selX (tab (c% "b")) [.mk (.query oneX) (c% "a") [], .mk (.query (selX (tab (c% "a")) [])) (c% "b") []]).resolve
      .empty).map (·.2) = .ok ⟨[⟨some (c% "x"), .query, .unknown⟩], []⟩ := rfl

/-- `WITH a AS (SELECT 1 AS x) SELECT x FROM (SELECT x FROM a)`: nor does a subquery in the body. -/
theorem C37_with_not_visible_in_subquery :
    ((selX (.query (selX (tab (c% "a")) [])) [.mk (.query oneX) (c% "a") []]).resolve .empty).map (·.2) =
      .ok ⟨[⟨some (c% "x"), .query, .unknown⟩], []⟩ := rfl

/-- `WITH a AS (SELECT 1 AS x) SELECT x FROM a UNION SELECT x FROM a`: nor do the sides of a set
operation. -/
theorem C37_with_not_visible_in_union :
    ((Query.mk (.set .union (selX (tab (c% "a")) []) (selX (tab (c% "a")) []) true) none none []
      [.mk (.query oneX) (c% "a") []]).resolve .empty).map (·.2) =
      .ok ⟨[⟨some (c% "x"), .query, .unknown⟩], []⟩ := rfl

/-- `SELECT (SELECT x FROM (SELECT y)) FROM (SELECT 1 AS x)`: a subquery inside an expression is
resolved against the columns around it, not its own, so it takes the outer `x`. -/
theorem C37_expression_subquery_leaks :
    ((Query.mk (.select [.query (selX (.query (.mk (.select [.field (c% "y") none .unknown] none none none none false [])
        none none [] [])) [])]
        (some (.query oneX)) none none none false []) none none [] []).resolve .empty).map (·.1) =
    .ok (.mk (.select [.query (.mk (.select [.field (c% "x") none (.simple .integer)]
          (some (.query (.mk (.select [.field (c% "y") none .unknown] none none none none false []) none none [] [])))
          none none none false []) none none [] [])]
        (some (.query oneX)) none none none false []) none none [] []) := rfl

/-! ## C40: lambdas -/

theorem lambdaLeaf_some {ins : List Str} {e r : Expr} (h : lambdaLeaf ins e = some (.ok r)) :
    r = mapExpr (bindNode ins) id e := by
  cases e with
  | field n t ty =>
    cases t with
    | none =>
      change (if ins.contains n then some (Except.ok (Expr.var n)) else none) = some (Except.ok r) at h
      split at h
      · rename_i hc
        cases h
        have : n ∈ ins := by simpa using hc
        show Expr.var n = bindNode ins (.field n none ty)
        simp [bindNode, this]
      · cases h
    | some t => cases h
  | _ => cases h

theorem lambdaLeaf_none {ins : List Str} {e : Expr} (h : lambdaLeaf ins e = none) (e' : Expr) (hs : SameNode e e') :
    bindNode ins e' = e' := by
  cases hs with
  | field' =>
    rename_i n t ty
    cases t with
    | none =>
      have : n ∉ ins := by
        intro hn
        simp [lambdaLeaf, hn] at h
      simp [bindNode, this]
    | some t => rfl
  | _ => rfl

/-- **C40.** A lambda built from an expression has the given inputs, and its body is the expression with
every unqualified column named like an input replaced by the variable of that name, and nothing else. -/
theorem C40_binds_partial (ins : List Str) (e r : Expr) (h : lambdaOf ins e = .ok r) :
    r = .lam ins (mapExpr (bindNode ins) id e) ∧ ins.Nodup := by
  obtain ⟨b, hb, h⟩ := bind_ok h
  obtain ⟨t, ht, h⟩ := bind_ok h
  cases h
  rw [Expr_check_lam] at ht
  obtain ⟨u, hu, ht⟩ := bind_ok ht
  split at ht
  · rename_i hn
    exact ⟨by rw [walkBindExpr (fun _ _ h => lambdaLeaf_some h) (fun _ h e' hs => lambdaLeaf_none h e' hs)
      (fun _ _ h => by cases h) e b hb], hn⟩
  · cases ht

/-- **C40.** Repeated inputs are refused. -/
theorem C40_duplicate_inputs (ins : List Str) (e : Expr) (h : ¬ ins.Nodup) : ∀ r, lambdaOf ins e ≠ .ok r :=
  fun r hr => h (C40_binds_partial ins e r hr).2

-- `x -> x + y`
example : lambdaOf [c% "x"] (.bin .add (.field (c% "x") none .unknown) (.field (c% "y") none .unknown)) =
    .ok (.lam [c% "x"] (.bin .add (.var (c% "x")) (.field (c% "y") none .unknown))) := rfl
-- `t.x` is not bound, the `x` inside a CASE is
example : lambdaOf [c% "x"] (.case none [(.isNull (.field (c% "x") none .unknown), .field (c% "x") (some (c% "t")) .unknown)] none) =
    .ok (.lam [c% "x"] (.case none [(.isNull (.var (c% "x")), .field (c% "x") (some (c% "t")) .unknown)] none)) := rfl

/-- **C40.** Afterwards no unqualified column of the body is named like an input. -/
theorem C40_no_column_left (ins : List Str) (e b : Expr) (h : lambdaOf ins e = .ok (.lam ins b)) :
    ∀ c ∈ colsExpr b, c.table = none → c.name ∉ ins := by
  have := (C40_binds_partial ins e _ h).1
  rw [(Expr.lam.inj this).2]
  exact nc_Expr ins e

/-- **C40.** Nested lambdas shadow: what the inner one has bound, the outer one leaves alone, whether or not it
has an input of the same name; the outer one binds the rest. -/
theorem C40_nested (outer inner : List Str) (e l r : Expr) (hl : lambdaOf inner e = .ok l) (hr : lambdaOf outer l = .ok r) :
    r = .lam outer (.lam inner (mapExpr (bindNode (inner ++ outer)) id e)) := by
  rw [(C40_binds_partial outer l r hr).1, (C40_binds_partial inner e l hl).1]
  show Expr.lam outer (.lam inner _) = _
  rw [sd_Expr]

-- `x -> (x -> x + y)`: the inner `x` stays the variable of the inner lambda
example : (do lambdaOf [c% "x", c% "y"] (← lambdaOf [c% "x"] (.bin .add (.field (c% "x") none .unknown) (.field (c% "y") none .unknown)))) =
    .ok (.lam [c% "x", c% "y"] (.lam [c% "x"] (.bin .add (.var (c% "x")) (.var (c% "y"))))) := rfl

/-- **C40 (when).** Without tables in the expression the only thing that can be refused is the finished lambda (repeated inputs, or a
node that its constructor refuses once the columns are variables); with tables, building always raises. -/
theorem C40_exact (ins : List Str) (e : Expr) :
    (tabsExpr e = [] → lambdaOf ins e = (Expr.lam ins (mapExpr (bindNode ins) id e)).build) ∧
    (tabsExpr e ≠ [] → lambdaOf ins e = .error .typeError) := by
  have h := wt_Expr ins e
  refine ⟨fun ht => ?_, fun ht => ?_⟩
  · show (walkExpr (lambdaLeaf ins) evolveTable e >>= _) = _
    rw [h.1 ht]; rfl
  · show (walkExpr (lambdaLeaf ins) evolveTable e >>= _) = _
    rw [h.2 ht]; rfl

/-- A table inside the expression makes building a lambda raise. -/
theorem C40_table_raises : lambdaOf [c% "x"] (.inQuery (.field (c% "x") none .unknown) (selX (tab (c% "t")) [])) =
    .error .typeError := (C40_exact _ _).2 (List.cons_ne_nil _ _)

end Treeno.Props
