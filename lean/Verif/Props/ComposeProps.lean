import Verif.Lemmas.ComposeQuery
import Verif.Props.DoubleProps
/-!
# C72: reading composes

A user who has expressions as text puts them together as text.  Each text in parentheses is read as the part it was,
and the whole as the node over the parts.
-/
set_option autoImplicit false
set_option linter.unusedVariables false
namespace Treeno.Props
open Spec

variable {s t u : Str} {a b c : Expr}

/-- A text in parentheses is read as the text is. -/
theorem C72_parenthesised (h : Text s a) : expressionFromSql (par s) = .ok a := by
  obtain ⟨c, h1, h2, h3⟩ := text_is h
  have : P (.lv 0) (toks (par s)) = some (c, []) := by
    rw [toks_par0 h3]
    exact operand_pt (by omega) h1 Stop.nil rfl
  rw [reads_as this, h2]

/-- Two operands and what stands between them. -/
theorem join2 {w : Str} {ts : List Tok} {o : CE → CE → CE} {r : Except Err Expr} (h1 : Text s a) (h2 : Text t b)
    (hw : ∀ y : Str, toks (w ++ y) = ts ++ toks y)
    (hp : ∀ c d, Opd (toks s) c → Opd (toks t) d → P (.lv 0) (pt (toks s) (ts ++ pt (toks t) [])) = some (o c d, []))
    (hc : ∀ c d, c.conv = .ok a → d.conv = .ok b → (o c d).conv = r) :
    expressionFromSql (par s ++ w ++ par t) = r := by
  obtain ⟨c, c1, c2, c3⟩ := text_is h1
  obtain ⟨d, d1, d2, d3⟩ := text_is h2
  have := hp c d c1 d1
  rw [← toks_par0 d3, ← hw, ← toks_par c3, ← List.append_assoc] at this
  rw [reads_as this, hc c d c2 d2]

theorem join2_bin {p : Nat} {w : Str} {k : Tok} {f : CE → CE → CE} {r : Except Err Expr} (h1 : Text s a) (h2 : Text t b)
    (hp : isBin p) (ho : binOp p k = some f) (hk : k.isSym (c% "->") = false) (hw : ∀ y : Str, toks (w ++ y) = k :: toks y)
    (hc : ∀ c d, c.conv = .ok a → d.conv = .ok b → (f c d).conv = r) :
    expressionFromSql (par s ++ w ++ par t) = r :=
  join2 (ts := [k]) (o := fun c d => f c d) h1 h2 hw (fun _ _ c1 d1 => full_bin hp ho hk c1 d1) hc

theorem join2_arith {p : Nat} {w : Str} {k : Tok} {o : BinOp} (h1 : Text s a) (h2 : Text t b)
    (hp : isBin p) (hb : binOp p k = some (.arith k)) (hk : k.isSym (c% "->") = false) (ho : arithOf k = .ok o)
    (hw : ∀ y : Str, toks (w ++ y) = k :: toks y) :
    expressionFromSql (par s ++ w ++ par t) = (Expr.bin o a b).build :=
  join2_bin h1 h2 hp hb hk hw fun c d h3 h4 => by
    rw [CE_conv_arith, h3, h4, ho]; rfl

theorem join2_cmp {w : Str} {k : Tok} {o : BinOp} (h1 : Text s a) (h2 : Text t b) (hk : k.isCmp = true)
    (ho : cmpOf k = .ok o) (hw : ∀ y : Str, toks (w ++ y) = k :: toks y) :
    expressionFromSql (par s ++ w ++ par t) = (Expr.bin o a b).build :=
  join2 (ts := [k]) (o := fun c d => .cmp k c d) h1 h2 hw (fun _ _ c1 d1 => full_cmp hk c1 d1)
    fun c d h3 h4 => by rw [CE_conv_cmp, h3, h4, ho]; rfl

theorem distinct_toks (y : Str) :
    toks (c% " IS DISTINCT FROM " ++ y) = kwT (c% "IS") :: kwT (c% "DISTINCT") :: kwT (c% "FROM") :: toks y :=
  (toks_mid (w := ['S']) rfl rfl).trans (congrArg (_ :: ·)
    ((toks_lead (w := ['I', 'S', 'T', 'I', 'N', 'C', 'T']) rfl rfl).trans (congrArg (_ :: ·) (toks_lead (w := ['R', 'O', 'M']) rfl rfl))))

theorem not_distinct_toks (y : Str) :
    toks (c% " IS NOT DISTINCT FROM " ++ y) =
      kwT (c% "IS") :: kwT (c% "NOT") :: kwT (c% "DISTINCT") :: kwT (c% "FROM") :: toks y :=
  (toks_mid (w := ['S']) rfl rfl).trans (congrArg (_ :: ·) ((toks_lead (w := ['O', 'T']) rfl rfl).trans (congrArg (_ :: ·)
    ((toks_lead (w := ['I', 'S', 'T', 'I', 'N', 'C', 'T']) rfl rfl).trans
      (congrArg (_ :: ·) (toks_lead (w := ['R', 'O', 'M']) rfl rfl))))))

/-- **C72.** Two texts in parentheses around a binary operator are read as the node over what the join2 texts are
read as: neither operand takes anything of the other, whatever operators, comments or line ends it has. -/
theorem C72_operator (h1 : Text s a) (h2 : Text t b) {w : Str} {o : BinOp} (hw : (w, o) ∈ binTexts) :
    expressionFromSql (par s ++ w ++ par t) = (Expr.bin o a b).build := by
  simp only [binTexts, List.mem_cons, List.not_mem_nil, or_false, Prod.mk.injEq] at hw
  rcases hw with ⟨rfl, rfl⟩ | ⟨rfl, rfl⟩ | ⟨rfl, rfl⟩ | ⟨rfl, rfl⟩ | ⟨rfl, rfl⟩ | ⟨rfl, rfl⟩ | ⟨rfl, rfl⟩ | ⟨rfl, rfl⟩ |
    ⟨rfl, rfl⟩ | ⟨rfl, rfl⟩ | ⟨rfl, rfl⟩ | ⟨rfl, rfl⟩ | ⟨rfl, rfl⟩ | ⟨rfl, rfl⟩
  · exact join2_bin (p := 0) (k := kwT (c% "OR")) h1 h2 (by unfold isBin; omega) rfl rfl (fun y => toks_mid (w := ['R']) rfl rfl)
      fun c d h3 h4 => by rw [CE_conv_or_, h3, h4]; rfl
  · exact join2_bin (p := 1) (k := kwT (c% "AND")) h1 h2 (by unfold isBin; omega) rfl rfl (fun y => toks_mid (w := ['N', 'D']) rfl rfl)
      fun c d h3 h4 => by rw [CE_conv_and_, h3, h4]; rfl
  · exact join2_cmp (k := symT (c% "=")) h1 h2 (by decide +kernel) rfl fun y => toks_mid (w := []) rfl rfl
  · exact join2_cmp (k := symT (c% "<>")) h1 h2 (by decide +kernel) rfl fun y => toks_mid (w := ['>']) rfl rfl
  · exact join2_cmp (k := symT (c% "<")) h1 h2 (by decide +kernel) rfl fun y => toks_mid (w := []) rfl rfl
  · exact join2_cmp (k := symT (c% "<=")) h1 h2 (by decide +kernel) rfl fun y => toks_mid (w := ['=']) rfl rfl
  · exact join2_cmp (k := symT (c% ">")) h1 h2 (by decide +kernel) rfl fun y => toks_mid (w := []) rfl rfl
  · exact join2_cmp (k := symT (c% ">=")) h1 h2 (by decide +kernel) rfl fun y => toks_mid (w := ['=']) rfl rfl
  · exact join2_arith (p := 5) (k := symT (c% "+")) h1 h2 (by unfold isBin; omega) rfl rfl rfl fun y => toks_mid (w := []) rfl rfl
  · exact join2_arith (p := 5) (k := symT (c% "-")) h1 h2 (by unfold isBin; omega) rfl rfl rfl fun y => toks_mid (w := []) rfl rfl
  · exact join2_arith (p := 6) (k := symT (c% "*")) h1 h2 (by unfold isBin; omega) rfl rfl rfl fun y => toks_mid (w := []) rfl rfl
  · exact join2_arith (p := 6) (k := symT (c% "/")) h1 h2 (by unfold isBin; omega) rfl rfl rfl fun y => toks_mid (w := []) rfl rfl
  · exact join2_arith (p := 6) (k := symT (c% "%")) h1 h2 (by unfold isBin; omega) rfl rfl rfl fun y => toks_mid (w := []) rfl rfl
  · exact join2 (ts := [kwT (c% "IS"), kwT (c% "DISTINCT"), kwT (c% "FROM")]) (o := fun c d => .distinct false c d) h1 h2 distinct_toks
      (fun c d c1 d1 => full_distinct false c1 d1)
      fun c d h3 h4 => by rw [CE_conv_distinct, h3, h4]; rfl

theorem C72_not_distinct (h1 : Text s a) (h2 : Text t b) :
    expressionFromSql (par s ++ c% " IS NOT DISTINCT FROM " ++ par t) = (Expr.not (.bin .distinct a b)).build :=
  join2 (ts := [kwT (c% "IS"), kwT (c% "NOT"), kwT (c% "DISTINCT"), kwT (c% "FROM")]) (o := fun c d => .distinct true c d) h1 h2 not_distinct_toks
    (fun c d c1 d1 => full_distinct true c1 d1)
    fun c d h3 h4 => by rw [CE_conv_distinct, h3, h4]; rfl

/-- `||` is a call of the function `CONCAT`. -/
theorem C72_concat (h1 : Text s a) (h2 : Text t b) :
    expressionFromSql (par s ++ c% " || " ++ par t) = (Expr.func .concat [a, b]).build :=
  join2_bin (p := 4) (k := symT (c% "||")) h1 h2 (by unfold isBin; omega) rfl rfl (fun y => toks_mid (w := ['|']) rfl rfl)
    fun c d h3 h4 => by rw [CE_conv_concat, h3, h4]; rfl

theorem C72_like (h1 : Text s a) (h2 : Text t b) :
    expressionFromSql (par s ++ c% " LIKE " ++ par t) = (Expr.like a b none).build :=
  join2 (ts := [kwT (c% "LIKE")]) (o := fun c d => .like false c d none) h1 h2
    (fun y => toks_mid (w := ['I', 'K', 'E']) rfl rfl) (fun c d c1 d1 => full_like false c1 d1)
    fun c d h3 h4 => by rw [CE_conv_like, h3, h4]; rfl

theorem C72_not_like (h1 : Text s a) (h2 : Text t b) :
    expressionFromSql (par s ++ c% " NOT LIKE " ++ par t) = (Expr.not (.like a b none)).build :=
  join2 (ts := [kwT (c% "NOT"), kwT (c% "LIKE")]) (o := fun c d => .like true c d none) h1 h2
    (fun y => (toks_mid (w := ['O', 'T']) rfl rfl).trans (congrArg (_ :: ·) (toks_lead (w := ['I', 'K', 'E']) rfl rfl)))
    (fun c d c1 d1 => full_like true c1 d1)
    fun c d h3 h4 => by rw [CE_conv_like, h3, h4]; rfl

/-- One operand and what stands before and after it. -/
theorem wrap1 {v w : Str} {vs ws : List Tok} {o : CE → CE} {r : Except Err Expr} (h1 : Text s a)
    (hv : ∀ y : Str, toks (v ++ y) = vs ++ toks y) (hw : toks w = ws)
    (hp : ∀ c, Opd (toks s) c → P (.lv 0) (vs ++ pt (toks s) ws) = some (o c, []))
    (hc : ∀ c, c.conv = .ok a → (o c).conv = r) :
    expressionFromSql (v ++ par s ++ w) = r := by
  obtain ⟨c, c1, c2, c3⟩ := text_is h1
  have := hp c c1
  rw [← hw, ← toks_par c3, ← hv, ← List.append_assoc] at this
  rw [reads_as this, hc c c2]

theorem C72_not (h : Text s a) : expressionFromSql (c% "NOT " ++ par s) = (Expr.not a).build := by
  have := wrap1 (v := c% "NOT ") (w := []) (vs := [kwT (c% "NOT")]) (ws := []) (o := fun c => .not_ c) h
    (fun y => toks_lead (w := ['O', 'T']) rfl rfl) rfl (fun c c1 => full_not c1) (r := (Expr.not a).build)
    fun c h3 => by rw [CE_conv_not_, h3]; rfl
  rwa [List.append_nil] at this

theorem C72_minus (h : Text s a) : expressionFromSql (c% "- " ++ par s) = (Expr.un .neg a).build := by
  have := wrap1 (v := c% "- ") (w := []) (vs := [symT (c% "-")]) (ws := []) (o := fun c => .sign (symT (c% "-")) c) h
    (fun y => toks_lead (w := []) rfl rfl) rfl (fun c c1 => full_sign (.inr rfl) c1) (r := (Expr.un .neg a).build)
    fun c h3 => by rw [CE_conv_sign, h3]; rfl
  rwa [List.append_nil] at this

theorem C72_plus (h : Text s a) : expressionFromSql (c% "+ " ++ par s) = (Expr.un .pos a).build := by
  have := wrap1 (v := c% "+ ") (w := []) (vs := [symT (c% "+")]) (ws := []) (o := fun c => .sign (symT (c% "+")) c) h
    (fun y => toks_lead (w := []) rfl rfl) rfl (fun c c1 => full_sign (.inl rfl) c1) (r := (Expr.un .pos a).build)
    fun c h3 => by rw [CE_conv_sign, h3]; rfl
  rwa [List.append_nil] at this

theorem C72_is_null (h : Text s a) : expressionFromSql (par s ++ c% " IS NULL") = (Expr.isNull a).build :=
  wrap1 (v := []) (vs := []) (o := fun c => .isNull false c) h (fun y => rfl) rfl
    (fun c c1 => full_isNull false c1) fun c h3 => by rw [CE_conv_isNull, h3]; rfl

theorem C72_is_not_null (h : Text s a) : expressionFromSql (par s ++ c% " IS NOT NULL") = (Expr.not (.isNull a)).build :=
  wrap1 (v := []) (vs := []) (o := fun c => .isNull true c) h (fun y => rfl) rfl
    (fun c c1 => full_isNull true c1) fun c h3 => by rw [CE_conv_isNull, h3]; rfl

/-- The `AND` of a `BETWEEN` ends the lower bound, and none inside the bounds is taken for it. -/
theorem C72_between (h1 : Text s a) (h2 : Text t b) (h3 : Text u c) :
    expressionFromSql (par s ++ c% " BETWEEN " ++ par t ++ c% " AND " ++ par u) = (Expr.between a b c).build := by
  obtain ⟨x, x1, x2, x3⟩ := text_is h1
  obtain ⟨y, y1, y2, y3⟩ := text_is h2
  obtain ⟨z, z1, z2, z3⟩ := text_is h3
  have := full_between false x1 y1 z1
  rw [← toks_par0 z3] at this
  have hm : toks (c% " AND " ++ par u) = kwT (c% "AND") :: toks (par u) := toks_mid (w := ['N', 'D']) rfl rfl
  rw [← hm, ← toks_par y3] at this
  have hb : toks (c% " BETWEEN " ++ (par t ++ (c% " AND " ++ par u))) = _ :=
    toks_mid (t := kwT (c% "BETWEEN")) (u := par t ++ (c% " AND " ++ par u)) (w := ['E', 'T', 'W', 'E', 'E', 'N']) rfl rfl
  have hf : ∀ x : List Tok, flag false [kwT (c% "NOT")] ++ x = x := fun _ => rfl
  rw [hf, ← hb, ← toks_par x3] at this
  simp only [← List.append_assoc] at this
  rw [reads_as this, CE_conv_between, x2, y2, z2]; rfl

/-- A list of texts after `IN`. -/
theorem C72_in (h : Text s a) {ss : List Str} {es : List Expr} (hne : ss ≠ []) (hs : Each Text ss es) :
    expressionFromSql (par s ++ c% " IN (" ++ parList ss ++ c% ")") = (Expr.inList a es).build := by
  obtain ⟨x, x1, x2, x3⟩ := text_is h
  obtain ⟨cs, k1, k2, k3⟩ := each_read hs
  have := full_in false x1 (by simpa using hne) k1
  have hl := toks_list k3 (c% ")")
  have hc : toks (c% ")") = cl [] := rfl
  rw [hc] at hl
  rw [← hl, ← toks_open] at this
  have hi : toks (c% " IN " ++ ('(' :: (parList ss ++ c% ")"))) = _ :=
    toks_mid (t := kwT (c% "IN")) (u := '(' :: (parList ss ++ c% ")")) (w := ['N']) rfl rfl
  have hf : ∀ x : List Tok, flag false [kwT (c% "NOT")] ++ x = x := fun _ => rfl
  rw [hf, ← hi, ← toks_par x3] at this
  have e : par s ++ c% " IN (" ++ parList ss ++ c% ")" = par s ++ (c% " IN " ++ ('(' :: (parList ss ++ c% ")"))) := by simp
  rw [e, reads_as this, CE_conv_inList, x2, k2]; rfl

/-- A list of texts, also an empty one, as the items of an array. -/
theorem C72_array {ss : List Str} {es : List Expr} (hs : Each Text ss es) :
    expressionFromSql (c% "ARRAY [" ++ parList ss ++ c% "]") = (Expr.array es).build := by
  obtain ⟨cs, k1, k2, k3⟩ := each_read hs
  have := full_array k1
  have hl := toks_list k3 (c% "]")
  have hc : toks (c% "]") = [symT (c% "]")] := rfl
  rw [hc] at hl
  rw [← hl] at this
  have hb : toks ('[' :: (parList ss ++ c% "]")) = symT (c% "[") :: toks (parList ss ++ c% "]") :=
    toks_step (t := symT (c% "[")) (r := parList ss ++ c% "]") (by cases ss <;> first | rfl | (rename_i x xs; cases xs <;> rfl))
  rw [← hb] at this
  have hi : toks (c% "ARRAY " ++ ('[' :: (parList ss ++ c% "]"))) = _ :=
    toks_lead (t := kwT (c% "ARRAY")) (u := '[' :: (parList ss ++ c% "]")) (w := ['R', 'R', 'A', 'Y']) rfl rfl
  rw [← hi] at this
  have e : c% "ARRAY [" ++ parList ss ++ c% "]" = c% "ARRAY " ++ ('[' :: (parList ss ++ c% "]")) := by simp
  rw [e, reads_as this, CE_conv_array, k2]; rfl

/-- A call of a function of the registry. -/
theorem C72_call (f : Fn) {ss : List Str} {es : List Expr} (hs : Each Text ss es) (hf : FnFits f es.length) :
    expressionFromSql (f.name ++ c% "(" ++ parList ss ++ c% ")") = (Expr.func f es).build := by
  obtain ⟨cs, k1, k2, k3⟩ := each_read hs
  have := full_call (fn_calls f) (by cases f <;> rfl) (by intro u; cases f <;> rfl) k1
  have hl := toks_list k3 (c% ")")
  have hc : toks (c% ")") = cl [] := rfl
  rw [hc] at hl
  rw [← hl, ← toks_open, ← fn_toks] at this
  have e : f.name ++ c% "(" ++ parList ss ++ c% ")" = f.name ++ '(' :: (parList ss ++ c% ")") := by simp
  rw [e, reads_as this, CE_conv_call, k2]
  show (do let n ← identTexts ([f.name].map wordOf); callOf n es [] none none none) = _
  rw [idents_words]
  show callOf [f.name] es [] none none none = _
  unfold callOf
  dsimp only
  rw [fn_named]
  dsimp only
  rw [if_neg (by simp), if_pos]
  unfold fnArgsOk
  by_cases hu : f = .fromUnixtime
  · rcases hf hu with h | h <;> simp [h]
  · simp [hu]

/-- A call of an aggregate. -/
theorem C72_aggregate (f : Agg) {ss : List Str} {es : List Expr} (hs : Each Text ss es) (hf : AggFits f es.length) :
    expressionFromSql (f.name ++ c% "(" ++ parList ss ++ c% ")") = (Expr.agg f es [] none none false).build := by
  obtain ⟨cs, k1, k2, k3⟩ := each_read hs
  have := full_call (agg_calls f) (by cases f <;> rfl) (by intro u; cases f <;> rfl) k1
  have hl := toks_list k3 (c% ")")
  have hc : toks (c% ")") = cl [] := rfl
  rw [hc] at hl
  rw [← hl, ← toks_open, ← agg_toks] at this
  have e : f.name ++ c% "(" ++ parList ss ++ c% ")" = f.name ++ '(' :: (parList ss ++ c% ")") := by simp
  rw [e, reads_as this, CE_conv_call, k2]
  show (do let n ← identTexts ([f.name].map wordOf); callOf n es [] none none none) = _
  rw [idents_words]
  show callOf [f.name] es [] none none none = _
  unfold callOf
  dsimp only
  rw [(agg_named f).1]
  dsimp only
  rw [(agg_named f).2]
  dsimp only
  rw [agg_order hf]
  rfl

/-- A query text after `IN`.  No text that is read as a query starts with a parenthesis, so it is not taken for a list. -/
theorem C72_in_query (h : Text s a) {q : Query} (hq : Text t (.query q)) :
    expressionFromSql (par s ++ c% " IN " ++ par t) = (Expr.inQuery a q).build := by
  obtain ⟨x, x1, x2, x3⟩ := text_is h
  cases hq with
  | expr _ h => exact absurd rfl (h q)
  | query hw hq =>
    obtain ⟨y, hy⟩ := hw
    have hn := read_start hy hq
    have := full_in_query false x1 hy hn
    have hf : ∀ x : List Tok, flag false [kwT (c% "NOT")] ++ x = x := fun _ => rfl
    rw [hf, ← toks_par0 (query_clean hy)] at this
    have hi : toks (c% " IN " ++ par t) = _ := toks_mid (t := kwT (c% "IN")) (u := par t) (w := ['N']) rfl rfl
    rw [← hi, ← toks_par x3, ← List.append_assoc] at this
    unfold queryFromSql at hq
    rw [hy] at hq
    rw [reads_as this, CE_conv_inSub, x2, show y.conv = _ from hq]
    rfl

/-- A query over a query: the select items, the query of the FROM clause and the condition are what their texts
are read as. -/
theorem C72_select {ss : List Str} {es : List Expr} (hne : ss ≠ []) (hs : Each Text ss es) {q : Query}
    (hq : Text t (.query q)) (hu : Text u c) :
    queryFromSql (c% "SELECT " ++ parList ss ++ c% " FROM " ++ par t ++ c% " WHERE " ++ par u) =
      (Query.build (.mk (.select es (some (.query q)) (some c) none none false []) none none [] [])).map some := by
  obtain ⟨cs, k1, k2, k3⟩ := each_read hs
  obtain ⟨z, z1, z2, z3⟩ := text_is hu
  cases hq with
  | expr _ h => exact absurd rfl (h q)
  | query hw hq =>
    obtain ⟨y, hy⟩ := hw
    have := full_select (by simpa using hne) k1 hy z1
    have hm : toks (c% " WHERE " ++ par u) = _ :=
      toks_mid (t := kwT (c% "WHERE")) (u := par u) (w := ['H', 'E', 'R', 'E']) rfl rfl
    rw [← toks_par0 z3, ← hm, ← toks_par (query_clean hy)] at this
    have hf : toks (c% " FROM " ++ (par t ++ (c% " WHERE " ++ par u))) = _ :=
      toks_mid (t := kwT (c% "FROM")) (u := par t ++ (c% " WHERE " ++ par u)) (w := ['R', 'O', 'M']) rfl rfl
    rw [← hf, ← toks_list k3] at this
    have hl : toks (c% "SELECT " ++ (parList ss ++ (c% " FROM " ++ (par t ++ (c% " WHERE " ++ par u))))) = _ :=
      toks_lead (t := kwT (c% "SELECT")) (u := parList ss ++ (c% " FROM " ++ (par t ++ (c% " WHERE " ++ par u))))
        (w := ['E', 'L', 'E', 'C', 'T']) rfl rfl
    rw [← hl] at this
    simp only [← List.append_assoc] at this
    unfold queryFromSql at hq ⊢
    rw [hy] at hq
    rw [this]
    dsimp only
    have hi : ∀ (cs : List CE) (es : List Expr), CE.convs cs = .ok es → CItem.convs (cs.map (.expr · false none)) = .ok es := by
      intro cs
      induction cs with
      | nil => intro es h; exact h
      | cons c cs ih =>
        intro es h
        have h' : (do let a ← c.conv; let as ← CE.convs cs; Except.ok (a :: as)) = .ok es := h
        obtain ⟨a, ha, h'⟩ := bind_ok h'
        obtain ⟨as, has, h'⟩ := bind_ok h'
        cases h'
        rw [List.map_cons, CItem_convs_cons, CItem_conv_expr, ha, ih as has]; rfl
    rw [CQ_conv_mk, CQN_conv_mk, CQT_conv_spec, hi _ _ k2, CR_convs_cons, CR_conv_sub, show y.conv = _ from hq]
    show (do
      let q ← (do
        let q ← (do
          let w ← dropNone z.isNone (do let a ← z.conv; Except.ok (some a))
          let q ← Query.build (.mk (.select es (some (.query q)) w none none false []) none none [] [])
          Except.ok (some q))
        limitQuery .none q)
      withQuery [] q) = _
    rw [z2]
    show (do
      let q ← (do
        let q ← (do
          let q ← Query.build (.mk (.select es (some (.query q)) (some c) none none false []) none none [] [])
          Except.ok (some q))
        limitQuery .none q)
      withQuery [] q) = _
    cases Query.build (.mk (.select es (some (.query q)) (some c) none none false []) none none [] []) <;> rfl

/-! ## Cases and limits -/

/-- A text with an operator that binds less than the ones put around it, and a comment. -/
def textA : Str := c% "x = NULL OR y -- not z"
/-- A text with a line end and the word that ends an operand of BETWEEN. -/
def textB : Str := c% "a\nAND b"
/-- The text of a query. -/
def textQ : Str := c% "SELECT a FROM t -- all"

def exprA : Expr := .bin .or (.bin .eq (col (c% "x")) (.lit none .unknown)) (col (c% "y"))
def exprB : Expr := .bin .and (col (c% "a")) (col (c% "b"))
def queryQ : Query := .mk (.select [col (c% "a")] (some (.table ⟨c% "t", none, none, []⟩)) none none none false []) none none [] []

theorem whole_query {s : Str} (n : Nat) (h : (parserN n .query (toks s)).map (·.2) = some []) :
    ∃ c, P .query (toks s) = some (c, []) := by
  cases hp : parserN n .query (toks s) with
  | none => rw [hp] at h; exact nomatch h
  | some p =>
    rw [hp] at h
    obtain ⟨c, r⟩ := p
    have hr : r = [] := Option.some.inj h
    subst hr
    exact ⟨c, P_of_parserN hp⟩

theorem textA_read : Text textA exprA := .expr (expr_of_parserN 60 (by krfl)) (by intro q h; cases h)
theorem textB_read : Text textB exprB := .expr (expr_of_parserN 60 (by krfl)) (by intro q h; cases h)
theorem textQ_read : Text textQ (.query queryQ) := .query (whole_query 40 (by krfl)) (query_of_parserN 60 (by krfl))

/-- The text of the next example. -/
example : par textA ++ c% " AND " ++ par textB = c% "(x = NULL OR y -- not z\n) AND (a\nAND b\n)" := rfl

example : expressionFromSql (par textA ++ c% " AND " ++ par textB) = .ok (.bin .and exprA exprB) :=
  C72_operator (w := c% " AND ") (o := .and) textA_read textB_read (by decide +kernel)

example : expressionFromSql (par (par textA ++ c% " AND " ++ par textB) ++ c% " OR " ++ par textQ) =
    .ok (.bin .or (.bin .and exprA exprB) (.query queryQ)) :=
  C72_operator (w := c% " OR ") (o := .or)
    (.expr (C72_operator (w := c% " AND ") (o := .and) textA_read textB_read (by decide +kernel)) (by intro q h; cases h))
    textQ_read (by decide +kernel)

example : expressionFromSql (par textB ++ c% " BETWEEN " ++ par textB ++ c% " AND " ++ par textA) =
    .ok (.between exprB exprB exprA) := C72_between textB_read textB_read textA_read

example : expressionFromSql (par textA ++ c% " IN (" ++ parList [textB, textQ, textA] ++ c% ")") =
    .ok (.inList exprA [exprB, .query queryQ, exprA]) :=
  C72_in textA_read (by simp) (.cons textB_read (.cons textQ_read (.cons textA_read .nil)))

example : expressionFromSql (par textB ++ c% " IN " ++ par textQ) = .ok (.inQuery exprB queryQ) :=
  C72_in_query textB_read textQ_read

example : expressionFromSql (c% "ARRAY [" ++ parList [textA, textB] ++ c% "]") = .ok (.array [exprA, exprB]) :=
  C72_array (.cons textA_read (.cons textB_read .nil))

example : expressionFromSql (c% "COALESCE(" ++ parList [textA, textB] ++ c% ")") = .ok (.func .coalesce [exprA, exprB]) :=
  C72_call .coalesce (.cons textA_read (.cons textB_read .nil)) (by intro h; cases h)

example : expressionFromSql (c% "BOOL_OR(" ++ parList [textB] ++ c% ")") = .ok (.agg .boolOr [exprB] [] none none false) :=
  C72_aggregate .boolOr (.cons textB_read .nil) (by intro h; cases h)

example : expressionFromSql (c% "NOT " ++ par textA) = .ok (.not exprA) := C72_not textA_read
example : expressionFromSql (par textA) = .ok exprA := C72_parenthesised textA_read
example : expressionFromSql (par textQ) = .ok (.query queryQ) := C72_parenthesised textQ_read
example : expressionFromSql (c% "- " ++ par textA) = .ok (.un .neg exprA) := C72_minus textA_read
example : expressionFromSql (c% "+ " ++ par textQ) = .ok (.un .pos (.query queryQ)) := C72_plus textQ_read
example : expressionFromSql (par textA ++ c% " || " ++ par textB) = .ok (.func .concat [exprA, exprB]) :=
  C72_concat textA_read textB_read
example : expressionFromSql (par textA ++ c% " LIKE " ++ par textB) = .ok (.like exprA exprB none) :=
  C72_like textA_read textB_read
example : expressionFromSql (par textA ++ c% " NOT LIKE " ++ par textQ) = .ok (.not (.like exprA (.query queryQ) none)) :=
  C72_not_like textA_read textQ_read
example : expressionFromSql (par textA ++ c% " IS NOT DISTINCT FROM " ++ par textB) = .ok (.not (.bin .distinct exprA exprB)) :=
  C72_not_distinct textA_read textB_read
example : expressionFromSql (par textA ++ c% " IS NULL") = .ok (.isNull exprA) := C72_is_null textA_read
example : expressionFromSql (par textA ++ c% " IS NOT NULL") = .ok (.not (.isNull exprA)) := C72_is_not_null textA_read

example : queryFromSql (c% "SELECT " ++ parList [textA, textQ] ++ c% " FROM " ++ par textQ ++ c% " WHERE " ++ par textB) =
    .ok (some (.mk (.select [exprA, .query queryQ] (some (.query queryQ)) (some exprB) none none false []) none none [] [])) :=
  C72_select (by simp) (.cons textA_read (.cons textQ_read .nil)) textQ_read textB_read

/-- Without the parentheses the parts are not kept. -/
theorem C72_parentheses_needed : ¬ ∀ (s t : Str) (a b : Expr), Text s a → Text t b →
    expressionFromSql (s ++ c% " AND " ++ t) = (Expr.bin .and a b).build := by
  intro h
  have := h (c% "x OR y") (c% "z") (.bin .or (col (c% "x")) (col (c% "y"))) (col (c% "z"))
    (.expr (expr_of_parserN 60 (by krfl)) (by intro q h; cases h)) (.expr (expr_of_parserN 60 (by krfl)) (by intro q h; cases h))
  rw [expr_of_parserN (x := .ok (.bin .or (col (c% "x")) (.bin .and (col (c% "y")) (col (c% "z"))))) 60 (by krfl)] at this
  cases this

/-- Without the line end a comment at the end of the text takes the closing parenthesis. -/
theorem C72_line_end_needed : ¬ ∀ (s : Str) (a : Expr), Text s a → expressionFromSql (c% "(" ++ s ++ c% ")") = .ok a := by
  intro h
  have := h textA exprA textA_read
  unfold expressionFromSql at this
  split at this
  · rename_i c hc
    obtain ⟨used, h1, hb, _⟩ := lv_bal P_sound hc
    rw [List.append_nil] at h1
    rw [← h1] at hb
    have := bal_iff.mp hb 0
    exact absurd this (by decide +kernel)
  · cases this

/-- A text that is no expression may become one in parentheses: its own parentheses close the outer ones. -/
theorem C72_converse_false : ∃ s, expressionFromSql (par s) = .ok (.bin .or (col (c% "x")) (col (c% "y"))) ∧
    expressionFromSql s = .error .syntax :=
  ⟨c% "x) OR (y", expr_of_parserN 60 (by krfl), rest_error (n := 40) rfl⟩

end Treeno.Props
