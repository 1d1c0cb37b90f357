import Verif.Spec.SetChain
import Verif.Props.ClauseProps
/-!
# C65: chains of set operations
-/
set_option autoImplicit false
namespace Treeno.Props
open Treeno Treeno.Spec

/-! ## The parse tree of a chain -/

def quantTok : Option Bool → Option Tok
  | none => none
  | some d => some (kwT (quantText d))

def setCst (k : SetKind) (d : Option Bool) (l r : CQT) : CQT := .set (kwT k.text) (quantTok d) l r

def cstLinks (ls : List (Link WrittenQuery)) : List (Link CQT) := ls.map fun l => ⟨l.kind, l.quant, l.operand.body.cst⟩

/-- Grouping keeps a relation between two kinds of operands: `R2` holds of single operands, `R1` of chains
of INTERSECT, `R0` of all chains. -/
theorem groupFrom_rel {α β : Type} {f : SetKind → Option Bool → α → α → α} {g : SetKind → Option Bool → β → β → β}
    {R0 R1 R2 : α → β → Prop} (h10 : ∀ {a A}, R1 a A → R0 a A) (h21 : ∀ {a A}, R2 a A → R1 a A)
    (hI : ∀ {d a A b B}, R1 a A → R2 b B → R1 (f .intersect d a b) (g .intersect d A B))
    (hU : ∀ {k d a A b B}, k ≠ .intersect → R0 a A → R1 b B → R0 (f k d a b) (g k d A B))
    {γ : Type} (p : γ → α) (q : γ → β) (ls : List (Link γ)) (hl : ∀ l ∈ ls, R2 (p l.operand) (q l.operand)) : ∀ (a : α) (A : β), R1 a A →
      R0 (groupFrom f none a (ls.map fun l => ⟨l.kind, l.quant, p l.operand⟩))
          (groupFrom g none A (ls.map fun l => ⟨l.kind, l.quant, q l.operand⟩)) ∧
      ∀ (k : SetKind) (d : Option Bool) (b : α) (B : β), k ≠ .intersect → R0 b B →
        R0 (groupFrom f (some (b, k, d)) a (ls.map fun l => ⟨l.kind, l.quant, p l.operand⟩))
          (groupFrom g (some (B, k, d)) A (ls.map fun l => ⟨l.kind, l.quant, q l.operand⟩)) := by
  induction ls with
  | nil => exact fun a A ha => ⟨h10 ha, fun k d b B hk hb => hU hk hb ha⟩
  | cons l ls ih =>
    intro a A ha
    have ih := ih fun l h => hl l (List.mem_cons_of_mem _ h)
    have h2 := hl l List.mem_cons_self
    obtain ⟨k, d, c⟩ := l
    cases k with
    | intersect => exact ih _ _ (hI ha h2)
    | union => exact ⟨(ih _ _ (h21 h2)).2 .union d _ _ (by decide) (h10 ha), fun k' d' b B hk hb => (ih _ _ (h21 h2)).2 .union d _ _ (by decide) (hU hk hb ha)⟩
    | except => exact ⟨(ih _ _ (h21 h2)).2 .except d _ _ (by decide) (h10 ha), fun k' d' b B hk hb => (ih _ _ (h21 h2)).2 .except d _ _ (by decide) (hU hk hb ha)⟩

/-- The parse tree is plain and its value is the query, provided the query can be built. -/
def Reads0 (c : CQT) (q : Query) : Prop :=
  c.Plain ∧ (∃ b, q = .mk b none none [] []) ∧ ∀ t, q.check = .ok t → c.conv = .ok (some q)

theorem reads_set {k : SetKind} {d : Option Bool} {a b : CQT} {A B : Query} (ha : Reads0 a A) (hb : Reads0 b B)
    (hl : if k = .intersect then 1 ≤ a.lvl ∧ 2 ≤ b.lvl else 1 ≤ b.lvl) : Reads0 (setCst k d a b) (setQuery k d A B) := by
  refine ⟨?_, ⟨_, rfl⟩, fun t h => ?_⟩
  · rw [setCst, CQT_Plain_set]
    refine ⟨?_, ?_, ha.1, hb.1, ?_⟩
    · cases k <;> exact List.mem_map.mpr ⟨_, by decide +kernel, rfl⟩
    · intro t h
      match d, h with
      | some true, h => cases h; exact List.mem_map.mpr ⟨_, by decide +kernel, rfl⟩
      | some false, h => cases h; exact List.mem_map.mpr ⟨_, by decide +kernel, rfl⟩
    · cases k with
      | intersect => exact hl
      | union => exact hl
      | except => exact hl
  · have hq := h
    rw [setQuery, Query_check_mk] at h
    obtain ⟨_, -, h⟩ := bind_ok h
    obtain ⟨_, -, h⟩ := bind_ok h
    rw [QBody_check_set] at h
    obtain ⟨ta, h1, h⟩ := bind_ok h
    obtain ⟨tb, h2, h⟩ := bind_ok h
    rw [setCst, CQT_conv_set]
    refine ebind (ha.2.2 ta h1) (ebind (hb.2.2 tb h2) (ebind (a := d.getD true) ?_ (ebind (a := k) ?_ (ebind (a := A) rfl (ebind (a := B) rfl (ebind (a := setQuery k d A B) ?_ rfl))))))
    · match d with
      | none => rfl
      | some true => rfl
      | some false => rfl
    · cases k <;> rfl
    · show Query.build (setQuery k d A B) = _
      rw [Query.build, hq]; rfl

theorem leaf_lvl {b : Treeno.QBody} (h : b.Fits) : b.cst.lvl = 2 := by
  match b, h with
  | .select .., _ => rfl
  | .set _ _ _ _, h => exact h.elim
  | .table _, _ => rfl
  | .values _, _ => rfl

theorem leaf_reads {b : Treeno.QBody} (ht : b.Tidy) (hf : b.Fits) : Reads0 b.cst (.mk b.reread none none [] []) :=
  ⟨(pl_body b ht hf).1, ⟨_, rfl⟩, fun t h => (cv_body b ht hf t h).1⟩

theorem chain_reads {a : WrittenQuery} {ls : List (Link WrittenQuery)} (ha : a.Ok) (hl : ∀ l ∈ ls, l.operand.Ok) :
    Reads0 (grouped setCst a.body.cst (cstLinks ls)) (grouped setQuery a.query (queries ls)) := by
  refine (groupFrom_rel (R0 := Reads0) (R1 := fun c q => Reads0 c q ∧ 1 ≤ c.lvl) (R2 := fun c q => Reads0 c q ∧ 2 ≤ c.lvl)
    (fun h => h.1) (fun h => ⟨h.1, Nat.le_of_succ_le h.2⟩) ?_ ?_ (fun w => w.body.cst) WrittenQuery.query ls ?_ _ _ ?_).1
  · intro d c C e E h1 h2
    refine ⟨reads_set h1.1 h2.1 ?_, Nat.le_refl 1⟩
    rw [if_pos rfl]
    exact ⟨h1.2, h2.2⟩
  · intro k d c C e E hk h1 h2
    refine reads_set h1 h2.1 ?_
    rw [if_neg hk]
    exact h2.2
  · intro l h
    obtain ⟨h1, h2, -⟩ := hl l h
    exact ⟨leaf_reads h1 h2, Nat.le_of_eq (leaf_lvl h2).symm⟩
  · obtain ⟨h1, h2, -⟩ := ha
    exact ⟨leaf_reads h1 h2, Nat.le_of_lt (Nat.lt_of_lt_of_eq (by decide) (leaf_lvl h2).symm)⟩

/-! ## The tokens of a chain -/

/-- The tokens of a link. -/
def linkToks (l : Link CQT) : List Tok := kwT l.kind.text :: ((quantTok l.quant).toList ++ l.operand.yield)

def leftToks : Option (CQT × SetKind × Option Bool) → List Tok
  | none => []
  | some (a, k, d) => a.yield ++ kwT k.text :: (quantTok d).toList

theorem yield_close (left : Option (CQT × SetKind × Option Bool)) (cur : CQT) : (close setCst left cur).yield = leftToks left ++ cur.yield := by
  match left with
  | none => rfl
  | some (a, k, d) =>
    show (setCst k d a cur).yield = _
    rw [setCst, CQT_yield_set, leftToks]
    simp

theorem yield_group : ∀ (ls : List (Link CQT)) (left : Option (CQT × SetKind × Option Bool)) (cur : CQT),
    (groupFrom setCst left cur ls).yield = ls.foldl (fun ts l => ts ++ linkToks l) (leftToks left ++ cur.yield)
  | [], left, cur => yield_close left cur
  | ⟨.intersect, d, b⟩ :: ls, left, cur => by
    rw [groupFrom, yield_group ls, List.foldl_cons, setCst, CQT_yield_set]
    simp [linkToks]
  | ⟨.union, d, b⟩ :: ls, left, cur => by
    show (groupFrom setCst (some (close setCst left cur, .union, d)) b ls).yield = _
    rw [yield_group ls, List.foldl_cons, leftToks, yield_close]
    simp [linkToks]
  | ⟨.except, d, b⟩ :: ls, left, cur => by
    show (groupFrom setCst (some (close setCst left cur, .except, d)) b ls).yield = _
    rw [yield_group ls, List.foldl_cons, leftToks, yield_close]
    simp [linkToks]

theorem leaf_tx {a : WrittenQuery} (h : a.Ok) : Tx a.text a.body.cst.yield := by
  obtain ⟨ht, hf, o, hs⟩ := h
  have h1 := tx_queries (.mk a.body none none [] []) (by rw [Query_Tidy_mk]; exact ⟨ht, (by exact nofun), (by exact nofun), trivial, trivial⟩) o _ hs
  rw [Query_cst_mk, (pl_body a.body ht hf).2] at h1
  refine h1.cast ?_
  show (CQ.mk false [] (.mk a.body.cst [] none .none)).yield = _
  rw [CQ_yield_mk, CQN_yield_mk]
  simp [orderPart, Spec.clause, CSort_yields_nil, CNamed_yields_nil, offsetPart, CLimit.yield]

theorem link_px (k : SetKind) (d : Option Bool) : Px true (kindWord k ++ quantWord d) (kwT k.text :: (quantTok d).toList) ∧ SafeHd (kindWord k ++ quantWord d) = true := by
  match k, d with
  | .union, none => exact ⟨Px.lit _ _ (by decide +kernel), rfl⟩
  | .union, some true => exact ⟨Px.lit _ _ (by decide +kernel), rfl⟩
  | .union, some false => exact ⟨Px.lit _ _ (by decide +kernel), rfl⟩
  | .except, none => exact ⟨Px.lit _ _ (by decide +kernel), rfl⟩
  | .except, some true => exact ⟨Px.lit _ _ (by decide +kernel), rfl⟩
  | .except, some false => exact ⟨Px.lit _ _ (by decide +kernel), rfl⟩
  | .intersect, none => exact ⟨Px.lit _ _ (by decide +kernel), rfl⟩
  | .intersect, some true => exact ⟨Px.lit _ _ (by decide +kernel), rfl⟩
  | .intersect, some false => exact ⟨Px.lit _ _ (by decide +kernel), rfl⟩

theorem chain_tx : ∀ (ls : List (Link WrittenQuery)), (∀ l ∈ ls, l.operand.Ok) → ∀ {s : Str} {ts : List Tok}, Tx s ts →
    Tx (chainText s ls) ((cstLinks ls).foldl (fun ts l => ts ++ linkToks l) ts)
  | [], _, _, _, h => h
  | l :: ls, hl, s, ts, h => by
    have hp := link_px l.kind l.quant
    have h1 := (h.infix hp.1 hp.2 (leaf_tx (hl l List.mem_cons_self))).cast
      (show _ = ts ++ linkToks ⟨l.kind, l.quant, l.operand.body.cst⟩ by simp [linkToks])
    exact chain_tx ls (fun x hx => hl x (List.mem_cons_of_mem _ hx)) h1

/-! ## The property -/

/-- **C65.** A chain of SELECT, TABLE and VALUES joined by set operations, of any length, is read as SQL
groups it: INTERSECT first, then from left to right, DISTINCT unless ALL is written. -/
theorem C65_chain (a : WrittenQuery) (ls : List (Link WrittenQuery)) (t : Ty) (ha : a.Ok) (hl : ∀ l ∈ ls, l.operand.Ok)
    (hc : (grouped setQuery a.query (queries ls)).check = .ok t) :
    queryFromSql (chainText a.text ls) = .ok (some (grouped setQuery a.query (queries ls))) := by
  obtain ⟨hp, ⟨b, hb⟩, hv⟩ := chain_reads ha hl
  have hx := chain_tx ls hl (leaf_tx ha)
  have hy := yield_group (cstLinks ls) none a.body.cst
  rw [C53_query_complete _ (.mk false [] (.mk (grouped setCst a.body.cst (cstLinks ls)) [] none .none)) ?_ ?_]
  · rw [hb] at hv hc ⊢
    exact query_tail (off := none) (lim := none) (cob := []) (cw := []) (hv t hc) rfl rfl nofun nofun
  · rw [CQ_Plain_mk, CQN_Plain_mk]
    exact ⟨(by exact nofun), trivial, hp, trivial, (by exact nofun), trivial⟩
  · rw [hx.toks, CQ_yield_mk, CQN_yield_mk]
    refine hy.symm.trans ?_
    simp [grouped, orderPart, Spec.clause, CSort_yields_nil, CNamed_yields_nil, offsetPart, CLimit.yield]

/-- **C65 (ordering).** ORDER BY after a chain orders the whole chain, not its last operand. -/
theorem C65_ordered (a : WrittenQuery) (ls : List (Link WrittenQuery)) (ws : List WrittenTerm) (t : Ty) (ha : a.Ok)
    (hl : ∀ l ∈ ls, l.operand.Ok) (hw : ∀ x ∈ ws, x.Ok) (hne : ws ≠ []) (hc : (grouped setQuery a.query (queries ls)).check = .ok t) :
    queryFromSql (chainText a.text ls ++ c% " ORDER BY " ++ join (c% ", ") (ws.map WrittenTerm.full)) =
      .ok (some (orderedBy (ws.map WrittenTerm.term) (grouped setQuery a.query (queries ls)))) := by
  obtain ⟨hp, ⟨b, hb⟩, hv⟩ := chain_reads ha hl
  have hx := (chain_tx ls hl (leaf_tx ha)).infix (Px.lit (c% " ORDER BY ") [kwT (c% "ORDER"), kwT (c% "BY")] (by decide +kernel)) rfl
      (tx_list (tx_terms ws hw) (by simpa using hne))
  have hy := yield_group (cstLinks ls) none a.body.cst
  have e : orderPart (CSort.yields (ws.map termCst)) = [kwT (c% "ORDER"), kwT (c% "BY")] ++ commas (CSort.yields (ws.map termCst)) := by
    cases ws with
    | nil => exact absurd rfl hne
    | cons x xs => rfl
  rw [C53_query_complete _ (.mk false [] (.mk (grouped setCst a.body.cst (cstLinks ls)) (ws.map termCst) none .none)) ?_ ?_]
  · rw [hb] at hv hc ⊢
    exact query_tail (off := none) (lim := none) (cw := []) (hv t hc) (cv_terms ws hw) rfl nofun nofun
  · rw [CQ_Plain_mk, CQN_Plain_mk]
    exact ⟨(by exact nofun), trivial, hp, pl_terms ws hw, (by exact nofun), trivial⟩
  · rw [hx.toks, CQ_yield_mk, CQN_yield_mk, e, grouped, hy]
    simp [Spec.clause, CNamed_yields_nil, offsetPart, CLimit.yield, leftToks]

/-- SELECT of a number from a table. -/
def pick (n : Int) (t : Str) : Treeno.QBody := .select [num n] (some (.table { name := t })) none none none false []
def picked (n : Int) (t : Str) : Query := .mk (pick n t) none none [] []

theorem pick_ok (n : Int) (t s : Str) (h1 : (picked n t).Tidy) (h2 : (picked n t).Fits) (h : (picked n t).sql {} = .ok s) : (WrittenQuery.mk (pick n t) s).Ok :=
  ⟨h1.1, h2.1, {}, h⟩

/-- The hypotheses are met, and the grouping is the one expected. -/
theorem C65_reached :
    queryFromSql (c% "SELECT 1 FROM \"a\" UNION ALL SELECT 2 FROM \"b\" INTERSECT SELECT 3 FROM \"c\" EXCEPT SELECT 4 FROM \"d\"") =
      .ok (some (setQuery .except none (setQuery .union (some false) (picked 1 (c% "a"))
        (setQuery .intersect none (picked 2 (c% "b")) (picked 3 (c% "c")))) (picked 4 (c% "d")))) :=
  C65_chain ⟨pick 1 (c% "a"), c% "SELECT 1 FROM \"a\""⟩
    [⟨.union, some false, ⟨pick 2 (c% "b"), c% "SELECT 2 FROM \"b\""⟩⟩, ⟨.intersect, none, ⟨pick 3 (c% "c"), c% "SELECT 3 FROM \"c\""⟩⟩,
      ⟨.except, none, ⟨pick 4 (c% "d"), c% "SELECT 4 FROM \"d\""⟩⟩] .unknown
    (pick_ok _ _ _ (by decide +kernel) (by decide +kernel) rfl)
    (by
      intro l hl
      simp only [List.mem_cons, List.not_mem_nil, or_false] at hl
      rcases hl with rfl | rfl | rfl <;> exact pick_ok _ _ _ (by decide +kernel) (by decide +kernel) rfl)
    rfl

/-- The same three operands group differently as the operations change. -/
theorem C65_precedence (k k' : SetKind) (a b c : WrittenQuery) (t : Ty) (ha : a.Ok) (hb : b.Ok) (hc : c.Ok)
    (h : (if k' = .intersect ∧ k ≠ .intersect then setQuery k none a.query (setQuery k' none b.query c.query)
      else setQuery k' none (setQuery k none a.query b.query) c.query).check = .ok t) :
    queryFromSql (a.text ++ kindWord k ++ b.text ++ kindWord k' ++ c.text) =
      .ok (some (if k' = .intersect ∧ k ≠ .intersect then setQuery k none a.query (setQuery k' none b.query c.query)
        else setQuery k' none (setQuery k none a.query b.query) c.query)) := by
  have e : (if k' = .intersect ∧ k ≠ .intersect then setQuery k none a.query (setQuery k' none b.query c.query)
      else setQuery k' none (setQuery k none a.query b.query) c.query) =
      grouped setQuery a.query (queries [⟨k, none, b⟩, ⟨k', none, c⟩]) := by cases k <;> cases k' <;> rfl
  rw [e] at h ⊢
  rw [← C65_chain a [⟨k, none, b⟩, ⟨k', none, c⟩] t ha (by simp [hb, hc]) h]
  simp [chainText, quantWord]

end Treeno.Props
