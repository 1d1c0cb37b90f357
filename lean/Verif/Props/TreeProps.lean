import Verif.Spec.Display
import Verif.Lemmas.TreeShown
import Verif.Lemmas.TreeInj
import Verif.Lemmas.ConvLits
import Verif.Lemmas.Types
import Verif.Props.CliProps
/-!
# C62: the tree command
-/
set_option autoImplicit false
namespace Treeno.Props
open Treeno Spec

/-! ## What is read -/

theorem mkType_name {n : Str} {ps : List (Str × PVal)} {t : Ty} (h : mkType n ps = .ok t) : t.typeName = upper n := by
  simp only [mkType] at h
  split at h
  · split at h
    · exact nomatch h
    · split at h
      · exact (validate_sound h).1
      · exact nomatch h
  · exact nomatch h

theorem decimal_name {d : Dec} {t : Ty} (h : inferDecimal d = .ok t) : t.typeName = c% "DECIMAL" := by
  simp only [inferDecimal, inferDecimalText] at h
  split at h
  · exact mkType_name h
  · split at h
    · exact mkType_name h
    · exact nomatch h

theorem readLit_typed : ∀ {p : Option Scalar × Ty}, ReadLit p → ∀ v, p.1 = some v → ofKind v p.2 = true
  | _, .null, _, h => nomatch h
  | _, .bool _, _, h => by cases h; rfl
  | _, .float _, _, h => by cases h; rfl
  | _, .int n, _, h => by cases h; show ofKind _ (inferIntegral n) = true; unfold inferIntegral; split <;> rfl
  | _, .dec (t := t) m hd, _, h => by
    cases h
    have := decimal_name hd
    cases t <;> first | rfl | (rename_i s; cases s <;> exact absurd this (by decide)) | exact absurd this (by simp [Ty.typeName])
  | _, .str (t := t) hs, _, h => by
    cases h
    have : t.typeName = c% "VARCHAR" := mkType_name hs
    cases t <;> first | rfl | (rename_i s; cases s <;> exact absurd this (by decide)) | exact absurd this (by simp [Ty.typeName])

/-- The constants of an expression that was read: every one is NULL without a type, or has the type that goes with
it. -/
theorem C62_constants_expression (s : Str) (e : Expr) (h : expressionFromSql s = .ok e) : ReadLits (litsExpr e) := by
  unfold expressionFromSql at h
  split at h
  · exact rl_expr _ _ h
  · exact nomatch h
theorem C62_constants_query (s : Str) (q : Query) (h : queryFromSql s = .ok (some q)) : ReadLits (litsQuery q) := by
  unfold queryFromSql at h
  split at h
  · exact rl_query _ _ h
  · exact nomatch h

theorem C62_typed_expression (s : Str) (e : Expr) (h : expressionFromSql s = .ok e) : Typed (litsExpr e) :=
  fun p hp => readLit_typed (C62_constants_expression s e h p hp)
theorem C62_typed_query (s : Str) (q : Query) (h : queryFromSql s = .ok (some q)) : Typed (litsQuery q) :=
  fun p hp => readLit_typed (C62_constants_query s q h p hp)
theorem resolved_lits {s : Schema} {q : Query} {p : Query × Schema} (h : q.resolve s = .ok p) : litsQuery p.1 = litsQuery q := by
  rw [← lm_Query forget_lits forgetTable p.1, C50_query s q p h, lm_Query forget_lits]

theorem got_query {s : Str} {x : SqlObject} (h : getSqlObject s .query = .ok x) :
    ∃ q p, queryFromSql s = .ok (some q) ∧ q.resolve .empty = .ok p ∧ x = .query p.1 := by
  obtain ⟨q, hq, h⟩ := bind_ok h
  obtain ⟨q', hr, h⟩ := bind_ok h
  cases q with
  | none => cases hr
  | some q =>
    obtain ⟨p, hp, hr⟩ := bind_ok hr
    cases hr
    exact ⟨q, p, hq, hp, (Except.ok.inj h).symm⟩

/-! ## The command -/

theorem query_isNode (q : Query) : isNode q.obj = true := by
  cases q with | mk b _ _ _ _ => cases b <;> rfl
theorem expr_isNode (e : Expr) : isNode e.obj = true := by
  cases e <;> first | rfl | exact query_isNode _
theorem display_query (q : Query) : (q.obj.treeify >>= prettyPrint) = .ok q.obj.tree := by
  rw [treeify_tree _ (dok_Query q)]
  show prettyPrint q.obj.tree = _
  cases q with | mk b _ _ _ _ => cases b <;> rfl
theorem tree_isNode : ∀ {o : Obj}, isNode o = true → o.tree.isNode = true
  | .inst c _, h => by
    have hc : c ≠ .dataType := by rintro rfl; exact Bool.noConfusion h
    rw [tree_inst hc]; rfl
theorem display_expr (e : Expr) : (e.obj.treeify >>= prettyPrint) = .ok e.obj.tree := by
  rw [treeify_tree _ (dok_Expr e)]
  show prettyPrint e.obj.tree = _
  have := tree_isNode (expr_isNode e)
  cases h : e.obj.tree with
  | leaf s => rw [h] at this; exact nomatch this
  | node l ks => rfl

/-- **C62.** `tree query` shows the picture of the query that was read and resolved, whenever it can be read and
resolved: displaying never fails. -/
theorem C62_query (s : Str) (t : PTree) : treeCommand .query s = .ok t ↔
    ∃ q p, queryFromSql s = .ok (some q) ∧ q.resolve .empty = .ok p ∧ p.1.obj.treeify = .ok t := by
  constructor
  · intro h
    obtain ⟨x, hx, h⟩ := bind_ok h
    obtain ⟨q, p, hq, hp, rfl⟩ := got_query hx
    refine ⟨q, p, hq, hp, ?_⟩
    rw [treeify_tree _ (dok_Query p.1)]
    exact (display_query p.1).symm.trans h
  · rintro ⟨q, p, hq, hp, ht⟩
    have hg : getSqlObject s .query = .ok (.query p.1) := by
      refine bind_of hq (bind_of (a := p.1) ?_ rfl)
      exact bind_of hp rfl
    refine bind_of hg ?_
    rw [treeify_tree _ (dok_Query p.1)] at ht
    exact (display_query p.1).trans ht
theorem C62_query_total (s : Str) : (∃ t, treeCommand .query s = .ok t) ↔
    ∃ q p, queryFromSql s = .ok (some q) ∧ q.resolve .empty = .ok p := by
  constructor
  · rintro ⟨t, h⟩
    obtain ⟨q, p, hq, hp, _⟩ := (C62_query s t).1 h
    exact ⟨q, p, hq, hp⟩
  · rintro ⟨q, p, hq, hp⟩
    exact ⟨_, (C62_query s _).2 ⟨q, p, hq, hp, treeify_tree _ (dok_Query p.1)⟩⟩

/-- **C62.** `tree expression` shows the picture of the expression that was read, and never fails if it can be read. -/
theorem C62_expression (s : Str) (t : PTree) : treeCommand .expression s = .ok t ↔
    ∃ e, expressionFromSql s = .ok e ∧ e.obj.treeify = .ok t := by
  constructor
  · intro h
    obtain ⟨x, hx, h⟩ := bind_ok h
    obtain ⟨e, he, hx⟩ := bind_ok hx
    cases hx
    refine ⟨e, he, ?_⟩
    rw [treeify_tree _ (dok_Expr e)]
    exact (display_expr e).symm.trans h
  · rintro ⟨e, he, ht⟩
    have hg : getSqlObject s .expression = .ok (.expression e) := bind_of he rfl
    refine bind_of hg ?_
    rw [treeify_tree _ (dok_Expr e)] at ht
    exact (display_expr e).trans ht
theorem C62_expression_total (s : Str) : (∃ t, treeCommand .expression s = .ok t) ↔ ∃ e, expressionFromSql s = .ok e := by
  constructor
  · rintro ⟨t, h⟩
    obtain ⟨e, he, _⟩ := (C62_expression s t).1 h
    exact ⟨e, he⟩
  · rintro ⟨e, he⟩
    exact ⟨_, (C62_expression s _).2 ⟨e, he, treeify_tree _ (dok_Expr e)⟩⟩

/-- `tree type` fails for every type: the picture of a type is a string, which has no `pretty_print`. -/
theorem C62_type_false (s : Str) (ty : Ty) (h : typeFromSql s = .ok ty) : treeCommand .type s = .error .attributeError := by
  have hg : getSqlObject s .type = .ok (.type ty) := bind_of h rfl
  show (getSqlObject s .type >>= _) = _
  rw [hg]
  show (ty.obj.treeify >>= prettyPrint) = _
  cases ty <;> rfl
theorem C62_type_reached : treeCommand .type (c% "BIGINT") = .error .attributeError :=
  C62_type_false _ (.simple .bigint) (C01_round_trip_partial (.simple .bigint) (.simple _) (.simple _))

/-! ## Every node is there -/

/-- **C62.** Every node of the query is shown, with everything below it, under the name of its class; a window of a
WINDOW clause has its own name instead. -/
theorem C62_nodes_query (q : Query) (t : PTree) (h : q.obj.treeify = .ok t) (c : Cls) (as : List (Str × Obj))
    (hn : .inst c as ∈ nodes q.obj) : NodeShown c as t := by
  rw [treeify_tree _ (dok_Query q)] at h
  cases h
  exact node_shown _ _ (query_isNode q) (dok_Query q) c as hn
/-- **C62.** And every node of an expression. -/
theorem C62_nodes_expression (e : Expr) (t : PTree) (h : e.obj.treeify = .ok t) (c : Cls) (as : List (Str × Obj))
    (hn : .inst c as ∈ nodes e.obj) : NodeShown c as t := by
  rw [treeify_tree _ (dok_Expr e)] at h
  cases h
  exact node_shown _ _ (expr_isNode e) (dok_Expr e) c as hn

/-! ## Choices -/

/-- How an attribute whose value is a member of an enum is shown: not at all if it is the default, else as the class and the
name of the member. -/
def choiceShown (key cls name : Str) (isDefault : Bool) : List PTree :=
  if isDefault then [] else [.node key [.leaf (cls ++ c% "." ++ name)]]

/-- **C62.** Choices are shown with the keyword of SQL, unless they are what SQL assumes. -/
theorem C62_choices (k : Str) (hk : hiddenKey k = false) :
    (∀ f : FrameType, Obj.treeifyAttrs [(k, f.obj)] = .ok (choiceShown k (c% "FrameType") f.text (f = .range))) ∧
    (∀ b : BoundType, Obj.treeifyAttrs [(k, b.obj)] = .ok (choiceShown k (c% "BoundType") b.text false)) ∧
    (∀ s : SampleType, Obj.treeifyAttrs [(k, s.obj)] = .ok (choiceShown k (c% "SampleType") s.text false)) ∧
    (∀ j : JoinType, Obj.treeifyAttrs [(k, j.obj)] =
      .ok (choiceShown k (c% "JoinType") (if j = .outer then c% "OUTER" else j.text) false)) ∧
    (∀ d : Bool, Obj.treeifyAttrs [(k, quantifier d)] =
      .ok (choiceShown k (c% "SetQuantifier") (if d then c% "DISTINCT" else c% "ALL") (!d))) := by
  refine ⟨?_, ?_, ?_, ?_, ?_⟩
  · intro f
    cases f <;> simp [Obj.treeifyAttrs, shouldSkip, hk] <;> rfl
  · intro f
    cases f <;> simp [Obj.treeifyAttrs, shouldSkip, hk] <;> rfl
  · intro f
    cases f <;> simp [Obj.treeifyAttrs, shouldSkip, hk] <;> rfl
  · intro f
    cases f <;> simp [Obj.treeifyAttrs, shouldSkip, hk] <;> rfl
  · intro f
    cases f <;> simp [Obj.treeifyAttrs, shouldSkip, hk] <;> rfl

/-- **C62.** A sort key is shown with its value, `DESC` and `NULLS FIRST`. -/
theorem C62_sort_key (v : Expr) (desc first : Bool) (t : PTree) (h : v.obj.treeify = .ok t) :
    (Ord.mk v desc first).obj.treeify = .ok (.node (c% "OrderTerm") (.node (c% "value") [t] ::
      (choiceShown (c% "order_type") (c% "OrderType") (c% "DESC") (!desc) ++
        choiceShown (c% "null_order") (c% "NullOrder") (c% "FIRST") (!first)))) := by
  have hs : shouldSkip (c% "value") v.obj = false := by
    have := expr_isNode v
    revert this
    cases v.obj <;> simp [isNode, shouldSkip, hiddenKey]
  rw [Ord_obj_mk]
  cases desc <;> cases first <;> simp [Obj.treeify, Obj.treeifyAttrs, hs, h] <;> rfl

mutual
/-- The labels of the nodes of a picture. -/
def labels : PTree → List Str
  | .leaf _ => []
  | .node l ks => l :: labelsOf ks
def labelsOf : List PTree → List Str
  | [] => []
  | t :: ts => labels t ++ labelsOf ts
end
theorem labels_mem : ∀ {ks : List PTree} {k : PTree} {l : Str}, k ∈ ks → l ∈ labels k → l ∈ labelsOf ks
  | x :: xs, k, l, hk, h => by
    rcases List.mem_cons.1 hk with rfl | hk
    · exact List.mem_append_left _ h
    · exact List.mem_append_right _ (labels_mem hk h)
theorem occurs_label {l : Str} {ks : List PTree} {t : PTree} (h : Occurs (.node l ks) t) : l ∈ labels t := by
  induction h with
  | here => exact List.mem_cons_self
  | inside hk _ ih => exact List.mem_cons_of_mem _ (labels_mem hk ih)

def sortedWindow : Win := .mk none [.mk (col (c% "x")) false false] [] .range (.unbounded .preceding) .current
/-- `SELECT x FROM t WINDOW w AS (ORDER BY x)` -/
def windowed : Query :=
  .mk (.select [col (c% "x")] (some (.table { name := c% "t" })) none none none false [(c% "w", sortedWindow)]) none none [] []
/-- The name of a window takes the place of its class. -/
theorem C62_window_false : sortedWindow.obj ∈ nodes windowed.obj ∧ (∃ as, sortedWindow.obj = .inst .window as) ∧
    ∃ t, windowed.obj.treeify = .ok t ∧ ∀ ks, ¬ Occurs (.node (c% "Window") ks) t := by
  refine ⟨?_, ⟨_, rfl⟩, _, rfl, fun ks h => absurd (occurs_label h) (by decide +kernel)⟩
  exact List.mem_cons_of_mem _ (List.mem_append_right _ (List.mem_append_right _ (List.mem_append_left _ List.mem_cons_self)))

/-! ## Nothing is lost -/

theorem forgotten {a b : TableRef} (h1 : a.name = b.name) (h2 : a.schema = b.schema) (h3 : a.catalog = b.catalog) :
    forgetTable a = forgetTable b := by
  cases a; cases b; cases h1; cases h2; cases h3; rfl

/-- **C62.** Two expressions with the same picture are equal, up to the columns that tables remember (a hidden
attribute).  Missing: constants whose type is not one of theirs; `C62_untyped_false` shows two. -/
theorem C62_determines_expression_partial (e e' : Expr) (t : PTree) (hl : Typed (litsExpr e)) (hl' : Typed (litsExpr e'))
    (h : e.obj.treeify = .ok t) (h' : e'.obj.treeify = .ok t) : mapExpr id forgetTable e = mapExpr id forgetTable e' := by
  rw [treeify_tree _ (dok_Expr _)] at h h'
  exact tinj_Expr id forgetTable (fun _ _ => forgotten) e e' hl hl' (Except.ok.inj (h.trans h'.symm))
/-- **C62.** So are two queries. -/
theorem C62_determines_query_partial (q q' : Query) (t : PTree) (hl : Typed (litsQuery q)) (hl' : Typed (litsQuery q'))
    (h : q.obj.treeify = .ok t) (h' : q'.obj.treeify = .ok t) : mapQuery id forgetTable q = mapQuery id forgetTable q' := by
  rw [treeify_tree _ (dok_Query _)] at h h'
  exact tinj_Query id forgetTable (fun _ _ => forgotten) q q' hl hl' (Except.ok.inj (h.trans h'.symm))

theorem same_text_expr {e e' : Expr} (hl : Typed (litsExpr e)) (hl' : Typed (litsExpr e')) (h : e.obj.tree = e'.obj.tree) (o : Opts) :
    e.sql o = e'.sql o := by
  rw [Expr.sql, Expr.sql, ← fg_Expr e, ← fg_Expr e', tinj_Expr forgetNode forgetTable (fun _ _ => forgotten) e e' hl hl' h]
theorem same_text_query {q q' : Query} (hl : Typed (litsQuery q)) (hl' : Typed (litsQuery q')) (h : q.obj.tree = q'.obj.tree) (o : Opts) :
    q.sql o = q'.sql o := by
  rw [← fg_Query q, ← fg_Query q', tinj_Query forgetNode forgetTable (fun _ _ => forgotten) q q' hl hl' h]

/-- **C62.** Two texts for which `tree query` shows the same picture are formatted the same way. -/
theorem C62_same_picture_query (s s' : Str) (t : PTree) (h : treeCommand .query s = .ok t) (h' : treeCommand .query s' = .ok t) :
    formatCommand .query s = formatCommand .query s' := by
  obtain ⟨x, hx, h⟩ := bind_ok h
  obtain ⟨x', hx', h'⟩ := bind_ok h'
  obtain ⟨q, p, hq, hp, rfl⟩ := got_query hx
  obtain ⟨q', p', hq', hp', rfl⟩ := got_query hx'
  have e1 := (display_query p.1).symm.trans h
  have e2 := (display_query p'.1).symm.trans h'
  have l1 : Typed (litsQuery p.1) := by rw [resolved_lits hp]; exact C62_typed_query s q hq
  have l2 : Typed (litsQuery p'.1) := by rw [resolved_lits hp']; exact C62_typed_query s' q' hq'
  show (getSqlObject s .query >>= _) = (getSqlObject s' .query >>= _)
  rw [hx, hx']
  exact same_text_query l1 l2 (Except.ok.inj (e1.trans e2.symm)) _
/-- **C62.** And for `tree expression`. -/
theorem C62_same_picture_expression (s s' : Str) (t : PTree) (h : treeCommand .expression s = .ok t)
    (h' : treeCommand .expression s' = .ok t) : formatCommand .expression s = formatCommand .expression s' := by
  obtain ⟨e, he, h⟩ := (C62_expression s t).1 h
  obtain ⟨e', he', h'⟩ := (C62_expression s' t).1 h'
  rw [treeify_tree _ (dok_Expr _)] at h h'
  have hx : getSqlObject s .expression = .ok (.expression e) := bind_of he rfl
  have hx' : getSqlObject s' .expression = .ok (.expression e') := bind_of he' rfl
  show (getSqlObject s .expression >>= _) = (getSqlObject s' .expression >>= _)
  rw [hx, hx']
  exact same_text_expr (C62_typed_expression s e he) (C62_typed_expression s' e' he') (Except.ok.inj (h.trans h'.symm)) _

/-- The string `'1'` that is said to be an INTEGER looks like the number. -/
theorem C62_untyped_false : ∃ e e' : Expr, ∃ t, e.obj.treeify = .ok t ∧ e'.obj.treeify = .ok t ∧ e.sql {} ≠ e'.sql {} :=
  ⟨.lit (some (.str (c% "1"))) (.simple .integer), .lit (some (.int 1)) (.simple .integer), _, rfl, rfl, by decide +kernel⟩

/-! ## Cases -/

def onlyLeaf (k v : Str) : PTree := .node k [.leaf v]
/-- `SELECT DISTINCT x FROM t ORDER BY x DESC NULLS FIRST` -/
def sortedQuery : Query :=
  .mk (.select [col (c% "x")] (some (.table { name := c% "t" })) none none none true []) none none [.mk (col (c% "x")) true true] []
/-- The picture of the column `x`. -/
def xPicture : PTree := .node (c% "Field") [onlyLeaf (c% "data_type") (c% "UNKNOWN"), onlyLeaf (c% "name") (c% "x")]
def sortedPicture : PTree :=
  .node (c% "SelectQuery") [
    onlyLeaf (c% "data_type") (c% "UNKNOWN"),
    .node (c% "orderby") [.node (c% "<list>") [.node (c% "OrderTerm") [
      .node (c% "value") [xPicture], onlyLeaf (c% "order_type") (c% "OrderType.DESC"),
      onlyLeaf (c% "null_order") (c% "NullOrder.FIRST")]]],
    .node (c% "select") [.node (c% "<list>") [xPicture]],
    .node (c% "from_") [.node (c% "Table") [onlyLeaf (c% "name") (c% "t")]],
    onlyLeaf (c% "select_quantifier") (c% "SetQuantifier.DISTINCT")]
theorem C62_reached : treeCommand .query (c% "SELECT DISTINCT x FROM t ORDER BY x DESC NULLS FIRST") = .ok sortedPicture := by
  have hq : queryFromSql (c% "SELECT DISTINCT x FROM t ORDER BY x DESC NULLS FIRST") = .ok (some sortedQuery) :=
    query_of_parserN 60 (by krfl)
  exact (C62_query _ _).2 ⟨_, _, hq, rfl, rfl⟩

/-- Two ways to write one expression. -/
theorem C62_same_picture_reached : ∃ t, treeCommand .expression (c% "1+x") = .ok t ∧ treeCommand .expression (c% "(1 + (x))") = .ok t := by
  have h1 : expressionFromSql (c% "1+x") = .ok (.bin .add (num 1) (col (c% "x"))) := expr_of_parserN 60 (by krfl)
  have h2 : expressionFromSql (c% "(1 + (x))") = .ok (.bin .add (num 1) (col (c% "x"))) := expr_of_parserN 60 (by krfl)
  exact ⟨_, (C62_expression _ _).2 ⟨_, h1, rfl⟩, (C62_expression _ _).2 ⟨_, h2, rfl⟩⟩

end Treeno.Props
