import Verif.Spec.Written
import Verif.Props.ReadingProps
import Verif.Props.RoundTripLimits
/-!
# C61: the clauses that are written are the clauses of the tree
-/
set_option autoImplicit false
namespace Treeno.Props
open Spec

theorem unsupported_isNone : ∀ (c : CE), c.isNone = true → Unsupported c
  | .paren c, h => .paren (unsupported_isNone c h)
  | .binary _, _ => .binary _
  | .exists_ _, _ => .exists_ _
  | .position _ _, _ => .position _ _
  | .substring _ _ _, _ => .substring _ _ _
  | .extract _ _, _ => .extract _ _
  | .trimFrom _ _ _, _ => .trimFrom _ _ _
  | .trim _ _, _ => .trim _ _
  | .grouping _, _ => .grouping _
  | .or_ .., h | .and_ .., h | .not_ .., h | .cmp .., h | .between .., h | .inList .., h
  | .inSub .., h | .like .., h | .isNull .., h | .distinct .., h | .concat .., h
  | .arith .., h | .sign .., h | .null, h | .interval .., h | .typeCtor .., h
  | .doublePrecision .., h | .num .., h | .bool .., h | .str .., h | .quantified .., h | .atZone .., h
  | .param, h | .row .., h | .rowKw .., h | .listagg .., h | .callStar .., h | .call .., h
  | .lam .., h | .sub .., h | .case .., h | .cast .., h | .array .., h | .subscript .., h
  | .col .., h | .deref .., h | .dateTime .., h | .session .., h | .normalize .., h =>
    Bool.noConfusion h

theorem isNone_unsupported {c : CE} (h : Unsupported c) : c.isNone = true := by
  induction h <;> first | rfl | assumption

theorem shown_drop {c : Option CE} {x : Option Expr} (h : dropNone (CE.isNoneOpt c) (CE.convOpt c) = .ok x) : Shown c x := by
  cases c with
  | none =>
    have : x = none := by
      rcases drop_inv h with h | h
      · rw [CE_convOpt_none] at h; exact (Except.ok.inj h).symm
      · exact h.2.1
    subst this
    exact ⟨fun h => Bool.noConfusion h, fun ⟨_, h, _⟩ => nomatch h⟩
  | some c =>
    rcases drop_inv h with h | ⟨h1, h2, _⟩
    · rw [CE_convOpt_some] at h
      obtain ⟨e, he, h⟩ := bind_ok h
      have := Except.ok.inj h
      subst this
      refine ⟨fun _ => ⟨c, rfl, fun hu => isNone_conv c (isNone_unsupported hu) e he⟩, fun _ => rfl⟩
    · subst h2
      refine ⟨fun h => Bool.noConfusion h, ?_⟩
      rintro ⟨e, he, hn⟩
      cases he
      exact absurd (unsupported_isNone _ h1) hn

theorem setAttr_inv {f : Query → Query} {q x : Option Query} (h : setAttr f q = .ok x) : ∃ a, q = some a ∧ x = some (f a) := by
  obtain ⟨a, ha, h⟩ := bind_ok h
  exact ⟨a, noneIs_inv ha, (Except.ok.inj h).symm⟩

theorem order_inv {ob : List Ord} {b : QBody} {off lim : Option Int} {w : List Named} {x : Option Query}
    (h : orderQuery ob (some (.mk b off lim [] w)) = .ok x) : x = some (.mk b off lim ob w) := by
  cases ob with
  | nil => exact (Except.ok.inj h).symm
  | cons o os =>
    obtain ⟨a, ha, hx⟩ := setAttr_inv (f := Query.setOrder (o :: os)) h
    cases ha
    exact hx

theorem offset_inv {off : Option (Tok × Option Tok)} {b : QBody} {lim : Option Int} {ob : List Ord} {w : List Named} {x : Option Query}
    (h : offsetQuery off (some (.mk b none lim ob w)) = .ok x) : x = some (.mk b (offsetWritten off) lim ob w) := by
  cases off with
  | none => exact (Except.ok.inj h).symm
  | some p =>
    obtain ⟨n, hn, h⟩ := bind_ok (h : (rowCountOf p.1 >>= _) = _)
    obtain ⟨a, ha, hx⟩ := setAttr_inv h
    cases ha
    unfold rowCountOf at hn
    split at hn
    · rw [hx, ← Except.ok.inj hn]; rfl
    · exact nomatch hn

theorem limit_inv {l : CLimit} {b : QBody} {off : Option Int} {ob : List Ord} {w : List Named} {x : Option Query}
    (h : limitQuery l (some (.mk b off none ob w)) = .ok x) : x = some (.mk b off (limitWritten l) ob w) := by
  cases l with
  | none => exact (Except.ok.inj h).symm
  | fetch _ _ _ _ => exact (Except.ok.inj h).symm
  | limit t =>
    obtain ⟨n, hn, h⟩ := bind_ok (h : (limitOf t >>= _) = _)
    obtain ⟨a, ha, hx⟩ := setAttr_inv h
    cases ha
    unfold limitOf at hn
    show x = some (.mk b off (if t.kind = .int then some ((digitsVal t.text : Nat) : Int) else none) ob w)
    split at hn
    · next hk => rw [hx, ← Except.ok.inj hn, if_pos hk]; rfl
    · next hk =>
      split at hn
      · rw [hx, ← Except.ok.inj hn, if_neg hk]; rfl
      · exact nomatch hn

theorem with_inv {ns : List Named} {b : QBody} {off lim : Option Int} {ob : List Ord} {x : Option Query}
    (h : withQuery ns (some (.mk b off lim ob [])) = .ok x) : x = some (.mk b off lim ob ns) := by
  cases ns with
  | nil => exact (Except.ok.inj h).symm
  | cons o os =>
    obtain ⟨a, ha, hx⟩ := setAttr_inv (f := Query.setWith (o :: os)) h
    cases ha
    exact hx

theorem sorts_directions : ∀ (cs : List CSort) (os : List Ord), CSort.convs cs = .ok os → directions os = directionsWritten cs
  | [], os, h => by rw [CSort_convs_nil] at h; rw [← Except.ok.inj h]; rfl
  | .mk c o n :: cs, os, h => by
    rw [CSort_convs_cons] at h
    obtain ⟨a, ha, k1⟩ := bind_ok h
    obtain ⟨b, hb, k2⟩ := bind_ok k1
    rw [← Except.ok.inj k2]
    show (isDesc o, isNullsFirst n) :: directions b = (descMeaning o, firstMeaning n) :: directionsWritten cs
    rw [sorts_directions cs b hb, desc_mean, first_mean]

theorem items_length : ∀ (cs : List CItem) (es : List Expr), CItem.convs cs = .ok es → es.length = cs.length
  | [], es, h => by rw [CItem_convs_nil] at h; rw [← Except.ok.inj h]; rfl
  | c :: cs, es, h => by
    rw [CItem_convs_cons] at h
    obtain ⟨a, ha, k1⟩ := bind_ok h
    obtain ⟨b, hb, k2⟩ := bind_ok k1
    rw [← Except.ok.inj k2, List.length_cons, List.length_cons, items_length cs b hb]

theorem grps_length : ∀ (cs : List CGrp) (es : List Grp), CGrp.convs cs = .ok es → es.length = cs.length
  | [], es, h => by rw [CGrp_convs_nil] at h; rw [← Except.ok.inj h]; rfl
  | c :: cs, es, h => by
    rw [CGrp_convs_cons] at h
    obtain ⟨a, ha, k1⟩ := bind_ok h
    obtain ⟨b, hb, k2⟩ := bind_ok k1
    rw [← Except.ok.inj k2, List.length_cons, List.length_cons, grps_length cs b hb]

theorem nameds_length : ∀ (cs : List CNamed) (es : List Named), CNamed.convs cs = .ok es → es.length = cs.length
  | [], es, h => by rw [CNamed_convs_nil] at h; rw [← Except.ok.inj h]; rfl
  | .mk n cols q :: cs, es, h => by
    rw [CNamed_convs_cons] at h
    obtain ⟨a, ha, k1⟩ := bind_ok h
    obtain ⟨b, hb, k2⟩ := bind_ok k1
    obtain ⟨c, hc, k3⟩ := bind_ok k2
    obtain ⟨d, hd, k4⟩ := bind_ok k3
    obtain ⟨f, hf, k5⟩ := bind_ok k4
    rw [← Except.ok.inj k5, List.length_cons, List.length_cons, nameds_length cs f hf]

theorem whens_length : ∀ (cs : List CWhen) (es : List (Expr × Expr)), CWhen.convs cs = .ok es → es.length = cs.length
  | [], es, h => by rw [CWhen_convs_nil] at h; rw [← Except.ok.inj h]; rfl
  | .mk c v :: cs, es, h => by
    rw [CWhen_convs_cons] at h
    obtain ⟨_, _, k1⟩ := bind_ok h
    obtain ⟨_, _, k2⟩ := bind_ok k1
    obtain ⟨b, hb, k3⟩ := bind_ok k2
    rw [← Except.ok.inj k3, List.length_cons, List.length_cons, whens_length cs b hb]

/-- A query term other than a query in parentheses is read as a query. -/
theorem term_some {t : CQT} {x : Option Query} (h : t.conv = .ok x) (hn : x = none) : ∃ q, t = .sub q := by
  cases t with
  | sub q => exact ⟨q, rfl⟩
  | set op quant l r =>
    rw [CQT_conv_set] at h
    obtain ⟨a, ha, k1⟩ := bind_ok h
    obtain ⟨b, hb, k2⟩ := bind_ok k1
    obtain ⟨d, hd, k3⟩ := bind_ok k2
    obtain ⟨k, hkd, k4⟩ := bind_ok k3
    obtain ⟨a', ha', k5⟩ := bind_ok k4
    obtain ⟨b', hb', k6⟩ := bind_ok k5
    obtain ⟨q, hq, k7⟩ := bind_ok k6
    subst hn; exact nomatch k7
  | spec quant items fr wh gq gs hv wins =>
    rw [CQT_conv_spec] at h
    obtain ⟨is, his, k1⟩ := bind_ok h
    obtain ⟨rs, hrs, k2⟩ := bind_ok k1
    obtain ⟨f, hf, k3⟩ := bind_ok k2
    obtain ⟨d, hd, k4⟩ := bind_ok k3
    obtain ⟨w, hw, k5⟩ := bind_ok k4
    obtain ⟨hh, hhh, k6⟩ := bind_ok k5
    obtain ⟨g, hg, k7⟩ := bind_ok k6
    obtain ⟨gd, hgd, k8⟩ := bind_ok k7
    obtain ⟨ws, hws, k9⟩ := bind_ok k8
    obtain ⟨q, hq, k10⟩ := bind_ok k9
    subst hn; exact nomatch k10
  | table name =>
    rw [CQT_conv_table] at h
    obtain ⟨a, ha, k1⟩ := bind_ok h
    obtain ⟨t, ht, k2⟩ := bind_ok k1
    obtain ⟨q, hq, k3⟩ := bind_ok k2
    subst hn; exact nomatch k3
  | values es =>
    rw [CQT_conv_values] at h
    obtain ⟨a, ha, k1⟩ := bind_ok h
    obtain ⟨q, hq, k2⟩ := bind_ok k1
    subst hn; exact nomatch k2

theorem order_none {ob : List Ord} {q x : Option Query} (h : orderQuery ob q = .ok x) : x = none ↔ q = none := by
  unfold orderQuery at h
  split at h
  · rw [Except.ok.inj h]
  · obtain ⟨a, rfl, rfl⟩ := setAttr_inv h
    exact ⟨nofun, nofun⟩
theorem offset_none {off : Option (Tok × Option Tok)} {q x : Option Query} (h : offsetQuery off q = .ok x) : x = none ↔ q = none := by
  cases off with
  | none => rw [Except.ok.inj (h : Except.ok q = Except.ok x)]
  | some p =>
    obtain ⟨n, hn, h⟩ := bind_ok (h : (rowCountOf p.1 >>= _) = _)
    obtain ⟨a, rfl, rfl⟩ := setAttr_inv h
    exact ⟨nofun, nofun⟩
theorem limit_none {l : CLimit} {q x : Option Query} (h : limitQuery l q = .ok x) : x = none ↔ q = none := by
  cases l with
  | none => rw [Except.ok.inj (h : Except.ok q = Except.ok x)]
  | fetch _ _ _ _ => rw [Except.ok.inj (h : Except.ok q = Except.ok x)]
  | limit t =>
    obtain ⟨n, hn, h⟩ := bind_ok (h : (limitOf t >>= _) = _)
    obtain ⟨a, rfl, rfl⟩ := setAttr_inv h
    exact ⟨nofun, nofun⟩
theorem with_none {ns : List Named} {q x : Option Query} (h : withQuery ns q = .ok x) : x = none ↔ q = none := by
  unfold withQuery at h
  split at h
  · rw [Except.ok.inj h]
  · obtain ⟨a, rfl, rfl⟩ := setAttr_inv h
    exact ⟨nofun, nofun⟩

theorem query_none : ∀ (c : CQ) {x : Option Query}, c.conv = .ok x → (x = none ↔ Nested c)
  | .mk rc w (.mk t ob off lim), x, h => by
    rw [CQ_conv_mk] at h
    obtain ⟨q, hq, k1⟩ := bind_ok h
    cases rc with
    | true => exact nomatch k1
    | false =>
      obtain ⟨ns, hns, k2⟩ := bind_ok (k1 : (CNamed.convs w >>= _) = _)
      rw [with_none k2]
      rw [CQN_conv_mk] at hq
      obtain ⟨a, ha, l1⟩ := bind_ok hq
      obtain ⟨o, ho, l2⟩ := bind_ok l1
      obtain ⟨b, hb, l3⟩ := bind_ok l2
      obtain ⟨c, hc, l4⟩ := bind_ok l3
      rw [limit_none l4, offset_none hc, order_none hb]
      constructor
      · intro hn
        obtain ⟨q', rfl⟩ := term_some ha hn
        exact .mk ..
      · rintro ⟨⟩
        rw [CQT_conv_sub] at ha
        obtain ⟨_, _, ha⟩ := bind_ok ha
        exact (Except.ok.inj ha).symm

theorem rel_none : ∀ (c : CR) {x : Option Rel}, c.conv = .ok x → (x = none ↔ NestedRel c)
  | .paren r, x, h => by
    rw [CR_conv_paren] at h
    rw [rel_none r h]
    exact ⟨.paren, fun h => by cases h; assumption⟩
  | .sub q, x, h => by
    rw [CR_conv_sub] at h
    obtain ⟨y, hy, h⟩ := bind_ok h
    rw [← Except.ok.inj h, Option.map_eq_none_iff, query_none q hy]
    exact ⟨.sub, fun h => by cases h; assumption⟩
  | .cross l r, x, h => by
    rw [CR_conv_cross] at h
    obtain ⟨_, _, h⟩ := bind_ok h
    obtain ⟨_, _, h⟩ := bind_ok h
    obtain ⟨_, _, h⟩ := bind_ok h
    obtain ⟨_, _, h⟩ := bind_ok h
    obtain ⟨_, _, h⟩ := bind_ok h
    rw [← Except.ok.inj h]; exact ⟨nofun, nofun⟩
  | .natural l t r, x, h => by
    rw [CR_conv_natural] at h
    obtain ⟨_, _, h⟩ := bind_ok h
    obtain ⟨_, _, h⟩ := bind_ok h
    obtain ⟨_, _, h⟩ := bind_ok h
    obtain ⟨_, _, h⟩ := bind_ok h
    obtain ⟨_, _, h⟩ := bind_ok h
    rw [← Except.ok.inj h]; exact ⟨nofun, nofun⟩
  | .join l t r c, x, h => by
    rw [CR_conv_join] at h
    obtain ⟨_, _, h⟩ := bind_ok h
    obtain ⟨_, _, h⟩ := bind_ok h
    obtain ⟨_, _, h⟩ := bind_ok h
    obtain ⟨_, _, h⟩ := bind_ok h
    obtain ⟨_, _, h⟩ := bind_ok h
    obtain ⟨_, _, h⟩ := bind_ok h
    rw [← Except.ok.inj h]; exact ⟨nofun, nofun⟩
  | .sample r t e, x, h => by
    rw [CR_conv_sample] at h
    obtain ⟨_, _, h⟩ := bind_ok h
    obtain ⟨_, _, h⟩ := bind_ok h
    obtain ⟨_, _, h⟩ := bind_ok h
    obtain ⟨_, _, h⟩ := bind_ok h
    obtain ⟨_, _, h⟩ := bind_ok h
    rw [← Except.ok.inj h]; exact ⟨nofun, nofun⟩
  | .alias r b n cols, x, h => by
    rw [CR_conv_alias] at h
    obtain ⟨_, _, h⟩ := bind_ok h
    obtain ⟨_, _, h⟩ := bind_ok h
    obtain ⟨_, _, h⟩ := bind_ok h
    obtain ⟨_, _, h⟩ := bind_ok h
    obtain ⟨_, _, h⟩ := bind_ok h
    rw [← Except.ok.inj h]; exact ⟨nofun, nofun⟩
  | .table name, x, h => by
    rw [CR_conv_table] at h
    obtain ⟨_, _, h⟩ := bind_ok h
    obtain ⟨_, _, h⟩ := bind_ok h
    rw [← Except.ok.inj h]; exact ⟨nofun, nofun⟩
  | .unnest es o, x, h => by
    rw [CR_conv_unnest] at h
    obtain ⟨_, _, h⟩ := bind_ok h
    obtain ⟨_, _, h⟩ := bind_ok h
    rw [← Except.ok.inj h]; exact ⟨nofun, nofun⟩
  | .lateral q, x, h => by
    rw [CR_conv_lateral] at h
    obtain ⟨_, _, h⟩ := bind_ok h
    obtain ⟨_, _, h⟩ := bind_ok h
    obtain ⟨_, _, h⟩ := bind_ok h
    rw [← Except.ok.inj h]; exact ⟨nofun, nofun⟩

theorem from_shown {fr : List CR} {rs : List (Option Rel)} {f : Option Rel} (h : CR.convs fr = .ok rs) (hf : fromOf rs = .ok f) :
    fr.length ≤ 1 ∧ (f.isSome ↔ ∃ r, fr = [r] ∧ ¬ NestedRel r) := by
  match fr with
  | [] =>
    rw [CR_convs_nil] at h
    rw [← Except.ok.inj h] at hf
    rw [← Except.ok.inj hf]
    exact ⟨Nat.zero_le _, fun h => Bool.noConfusion h, fun ⟨_, h, _⟩ => nomatch h⟩
  | [r] =>
    rw [CR_convs_cons] at h
    obtain ⟨a, ha, h⟩ := bind_ok h
    obtain ⟨b, hb, h⟩ := bind_ok h
    rw [CR_convs_nil] at hb
    rw [← Except.ok.inj hb] at h
    rw [← Except.ok.inj h] at hf
    have e : a = f := Except.ok.inj hf
    subst e
    refine ⟨Nat.le_refl _, ?_⟩
    have := rel_none r ha
    cases a with
    | none =>
      refine ⟨fun h => Bool.noConfusion h, ?_⟩
      rintro ⟨r', hr, hn⟩
      cases hr
      exact absurd (this.1 rfl) hn
    | some a => exact ⟨fun _ => ⟨r, rfl, fun hn => nomatch this.2 hn⟩, fun _ => rfl⟩
  | r :: r' :: fr =>
    rw [CR_convs_cons] at h
    obtain ⟨a, ha, h⟩ := bind_ok h
    obtain ⟨b, hb, h⟩ := bind_ok h
    rw [CR_convs_cons] at hb
    obtain ⟨a', ha', hb⟩ := bind_ok hb
    obtain ⟨b', hb', hb⟩ := bind_ok hb
    rw [← Except.ok.inj hb] at h
    rw [← Except.ok.inj h] at hf
    exact nomatch hf

/-- **C61.** For every text that `query_from_sql` accepts and that is a SELECT with whatever clauses: the
tree is a SELECT with as many items, the quantifier, the offset, the limit, the directions of ORDER BY, as
many grouping elements and as many common table expressions as written; it has a WHERE and a HAVING exactly
when they are written, unless they are of a form that the visitor has no method for; and it has a FROM exactly when it
is written, unless that is a query in more than one pair of parentheses. -/
theorem C61_clauses_partial (s : Str) (rc : Bool) (w : List CNamed) (quant : Option Tok) (items : List CItem) (fr : List CR) (wh : Option CE)
    (gq : Option Tok) (gs : List CGrp) (hv : Option CE) (wins : List CWinDef) (ob : List CSort) (off : Option (Tok × Option Tok)) (lim : CLimit)
    (rest : List Tok) (x : Option Query)
    (hp : P .query (toks s) = some (.mk rc w (.mk (.spec quant items fr wh gq gs hv wins) ob off lim), rest)) (h : queryFromSql s = .ok x) :
    ∃ is f wq g hq ws o ns, x = some (.mk (.select is f wq g hq (quantMeaning false quant) ws) (offsetWritten off) (limitWritten lim) o ns) ∧
      is.length = items.length ∧ (fr.length ≤ 1 ∧ (f.isSome ↔ ∃ r, fr = [r] ∧ ¬ NestedRel r)) ∧ Shown wh wq ∧ Shown hv hq ∧
      groupCount g = gs.length ∧ directions o = directionsWritten ob ∧ ns.length = w.length ∧ rc = false := by
  rw [queryFromSql, hp] at h
  have h : CQ.conv _ = .ok x := h
  rw [CQ_conv_mk] at h
  obtain ⟨q, hq, k1⟩ := bind_ok h
  cases rc with
  | true => exact nomatch k1
  | false =>
    obtain ⟨ns, hns, k2⟩ := bind_ok (k1 : (CNamed.convs w >>= _) = _)
    rw [CQN_conv_mk] at hq
    obtain ⟨a, ha, l1⟩ := bind_ok hq
    obtain ⟨o, ho, l2⟩ := bind_ok l1
    obtain ⟨b, hb, l3⟩ := bind_ok l2
    obtain ⟨c, hc, l4⟩ := bind_ok l3
    rw [CQT_conv_spec] at ha
    obtain ⟨is, his, m1⟩ := bind_ok ha
    obtain ⟨rs, hrs, m2⟩ := bind_ok m1
    obtain ⟨f, hf, m3⟩ := bind_ok m2
    obtain ⟨d, hd, m4⟩ := bind_ok m3
    obtain ⟨wq, hw, m5⟩ := bind_ok m4
    obtain ⟨hq', hhh, m6⟩ := bind_ok m5
    obtain ⟨g, hg, m7⟩ := bind_ok m6
    obtain ⟨gd, hgd, m8⟩ := bind_ok m7
    obtain ⟨ws, hws, m9⟩ := bind_ok m8
    obtain ⟨q', hq'', m10⟩ := bind_ok m9
    rw [← Except.ok.inj m10, qbuild_inv hq''] at hb
    rw [order_inv hb] at hc
    rw [offset_inv hc] at l4
    rw [limit_inv l4] at k2
    have hx := with_inv k2
    rw [quant_mean hd] at hx
    refine ⟨is, f, wq, groupByOf gd g, hq', dictOf ws, o, ns, hx, items_length _ _ his, from_shown hrs hf, shown_drop hw, shown_drop hhh, ?_,
      sorts_directions _ _ ho, nameds_length _ _ hns, rfl⟩
    rw [← grps_length _ _ hg]
    unfold groupByOf
    cases g <;> rfl

/-- **C61 (set operations, tables, VALUES).** A query is read as `None` exactly when it is another one in
parentheses. -/
theorem C61_none (s : Str) (c : CQ) (rest : List Tok) (x : Option Query) (hp : P .query (toks s) = some (c, rest)) (h : queryFromSql s = .ok x) :
    x = none ↔ Nested c := by
  rw [queryFromSql, hp] at h
  exact query_none c h

/-- **C61 (CASE).** The operand of a CASE is in the tree exactly when it is written and of a form that the visitor has a
method for; as many branches as written; an ELSE exactly when it is written. -/
theorem C61_case_partial (s : Str) (v : Option CE) (ws : List CWhen) (e : Option CE) (x : Expr)
    (hp : P (.lv 0) (toks s) = some (.case v ws e, [])) (h : expressionFromSql s = .ok x) :
    ∃ a bs d, x = .case a bs d ∧ Shown v a ∧ bs.length = ws.length ∧ (d.isSome ↔ e.isSome) := by
  rw [expressionFromSql, hp] at h
  have h : CE.conv _ = .ok x := h
  rw [CE_conv_case] at h
  obtain ⟨bs, hbs, k1⟩ := bind_ok h
  obtain ⟨a, ha, k2⟩ := bind_ok k1
  obtain ⟨d, hd, k3⟩ := bind_ok k2
  refine ⟨a, bs, d, build_inv k3, shown_drop ha, ?_, ?_⟩
  · exact whens_length ws bs hbs
  · cases e with
    | none => rw [CE_convOpt_none] at hd; rw [← Except.ok.inj hd]; rfl
    | some e =>
      rw [CE_convOpt_some] at hd
      obtain ⟨y, _, hd⟩ := bind_ok hd
      rw [← Except.ok.inj hd]; exact ⟨fun _ => rfl, fun _ => rfl⟩

/-- **C61 (unsupported forms).** They are never read as an expression. -/
theorem C61_unsupported (s : Str) (c : CE) (hp : P (.lv 0) (toks s) = some (c, [])) (hu : Unsupported c) (e : Expr) : expressionFromSql s ≠ .ok e := by
  rw [expressionFromSql, hp]
  exact isNone_conv c (isNone_unsupported hu) e

/-! ## Reached -/

/-- What the tree of a query shows of its clauses: which of FROM, WHERE and HAVING there are, the number of items and of
grouping elements, DISTINCT or not, the offset, the limit, the directions and the number of common table expressions. -/
structure Seen where
  items : Nat
  from_ : Bool
  where_ : Bool
  groups : Nat
  having : Bool
  distinct : Bool
  offset : Option Int
  limit : Option Int
  orders : List (Bool × Bool)
  withs : Nat
deriving DecidableEq

def seen : Except Err (Option Query) → Option Seen
  | .ok (some (.mk (.select is f w g h d _) off lim o ns)) =>
    some ⟨is.length, f.isSome, w.isSome, groupCount g, h.isSome, d, off, lim, directions o, ns.length⟩
  | _ => none

theorem seen_of_parserN {s : Str} {v : Seen} (n : Nat)
    (h : (parserN n .query (toks s)).map (fun p => seen p.1.conv) = some (some v)) : seen (queryFromSql s) = some v := by
  cases hp : parserN n .query (toks s) with
  | none => rw [hp] at h; exact nomatch h
  | some p =>
    rw [hp] at h
    obtain ⟨c, r⟩ := p
    rw [queryFromSql, P_of_parserN hp]
    exact Option.some.inj h

theorem C61_reached : seen (queryFromSql
      (c% "WITH u AS (TABLE t) SELECT DISTINCT a, b FROM u WHERE a > 1 GROUP BY a, b HAVING COUNT(b) > 2 ORDER BY a DESC, b NULLS FIRST OFFSET 3 ROWS LIMIT 4")) =
    some ⟨2, true, true, 2, true, true, some 3, some 4, [(true, false), (false, true)], 1⟩ := seen_of_parserN 60 (by krfl)

/-- The WHERE and the HAVING are written, but are not in the tree. -/
theorem C61_where_false : seen (queryFromSql (c% "SELECT a FROM t WHERE EXISTS (SELECT 1) GROUP BY a HAVING (GROUPING(a))")) =
    some ⟨1, true, false, 1, false, false, none, none, [], 0⟩ := seen_of_parserN 60 (by krfl)

/-- The FROM is written, but is not in the tree. -/
theorem C61_from_false : seen (queryFromSql (c% "SELECT a FROM ((SELECT a FROM t)) WHERE a > 1")) =
    some ⟨1, false, true, 0, false, false, none, none, [], 0⟩ := seen_of_parserN 60 (by krfl)

/-- Clauses after a query in parentheses are an error (an attribute of `None` is set), and nothing but the query in parentheses is `None`. -/
theorem C61_parentheses_false : queryFromSql (c% "(SELECT 1)") = .ok none ∧ queryFromSql (c% "(SELECT 1) LIMIT 1") = .error .attributeError :=
  ⟨query_of_parserN 60 (by krfl), query_of_parserN 60 (by krfl)⟩

end Treeno.Props
