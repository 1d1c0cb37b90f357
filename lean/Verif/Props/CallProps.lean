import Verif.Spec.Calls
import Verif.Props.ClauseProps
import Verif.Lemmas.SpecialCalls
/-!
# C41: function calls keep their arguments
-/
set_option autoImplicit false
namespace Treeno.Props
open Treeno Spec

/-- Two texts are printed on one line or on two. -/
theorem two_rows {d a b j : Str} {o : Opts} (h : joinStmts [a, b] o d = .ok j) : j = a ++ d ++ b ∨ j = a ++ (d ++ ['\n']) ++ b := by
  rcases C19_join_keeps_content d 80 [a, b] o with ⟨_, rows, h1, h2, h3⟩ | ⟨_, h1⟩
  · have h4 : (Except.ok j : Except Err Str) = .ok (rowsText d rows) := h.symm.trans h3
    cases h4
    rcases rows with _ | ⟨r, rows⟩
    · cases h2
    · rcases r with _ | ⟨x, r⟩
      · exact absurd rfl (h1 [] (by simp))
      · rcases r with _ | ⟨y, r⟩
        · rcases rows with _ | ⟨r, rows⟩
          · simp at h2
          · rcases r with _ | ⟨y, r⟩
            · exact absurd rfl (h1 [] (by simp))
            · simp at h2
              obtain ⟨rfl, rfl, rfl, h5⟩ := h2
              rcases rows with _ | ⟨r, rows⟩
              · right; simp [rowsText, join]
              · have := h5 r (by simp)
                exact absurd this (h1 r (by simp))
        · simp at h2
          obtain ⟨rfl, rfl, rfl, h5⟩ := h2
          rcases rows with _ | ⟨r, rows⟩
          · left; simp [rowsText, join]
          · have := h5 r (by simp)
            exact absurd this (h1 r (by simp))
  · have h4 : (Except.ok j : Except Err Str) = .error .assertion := h.symm.trans h1
    cases h4

/-- The text of a call. -/
theorem C41_text (name : Str) (args : List Expr) (ob : List Ord) (e : Expr) (o : Opts) (s : Str) (h : IsCall name args ob e)
    (hs : e.sql o = .ok s) : CallText o name args ob s := by
  cases h with
  | func f hn ho =>
    subst hn; subst ho
    change Expr.sqlN false o _ = _ at hs
    rw [Expr_sqlN_func] at hs
    obtain ⟨ss, h1, hs⟩ := bind_ok hs
    obtain ⟨j, h2, hs⟩ := bind_ok hs
    cases hs
    exact ⟨j, c% ")", ⟨ss, j, sqls_all2 h1, h2, rfl⟩, by simp, fun _ => ⟨[], by simp⟩, fun h => absurd rfl h⟩
  | agg f fl w ign hn =>
    subst hn
    change Expr.sqlN false o _ = _ at hs
    rw [Expr_sqlN_agg] at hs
    obtain ⟨ss, h1, hs⟩ := bind_ok hs
    obtain ⟨j, h2, hs⟩ := bind_ok hs
    obtain ⟨os, h3, hs⟩ := bind_ok hs
    obtain ⟨j', h4, hs⟩ := bind_ok hs
    obtain ⟨fs, _, hs⟩ := bind_ok hs
    obtain ⟨ws, _, hs⟩ := bind_ok hs
    obtain ⟨cs, _, hs⟩ := bind_ok hs
    cases hs
    have ha := ords_all2 h3
    unfold aggArgs at h4
    generalize hr : (if cs.isEmpty = true then [] else pad (spacing o ++ cs) o.spaces) = r
    cases ha with
    | nil =>
      cases h4
      exact ⟨j, c% ")" ++ r, ⟨ss, j, sqls_all2 h1, h2, rfl⟩, by simp, fun _ => ⟨r, rfl⟩, fun h => absurd rfl h⟩
    | @cons a b as bs hab hbs =>
      rw [if_neg (by simp)] at h4
      obtain ⟨ot, h5, h4⟩ := bind_ok h4
      obtain ⟨l, h6, h5⟩ := bind_ok h5
      cases h5
      have : ∃ sep, (sep = c% " " ∨ sep = c% " \n") ∧ j' = j ++ sep ++ (c% "ORDER BY " ++ l) := by
        rcases two_rows h4 with h | h
        · exact ⟨c% " ", .inl rfl, h⟩
        · exact ⟨c% " \n", .inr rfl, h⟩
      obtain ⟨sep, hsep, rfl⟩ := this
      exact ⟨j, sep ++ c% "ORDER BY " ++ l ++ c% ")" ++ r, ⟨ss, j, sqls_all2 h1, h2, rfl⟩, by simp,
        fun h => absurd h (by simp), fun _ => ⟨sep, l, r, hsep, ⟨_, _, .cons hab hbs, h6, rfl⟩, by simp⟩⟩

/-- The call whose arguments are swapped. -/
def swapped (name : Str) (args : List Expr) : Prop := upper name = c% "APPROX_PERCENTILE" ∧ args.length = 3

theorem fn_ofName {s : Str} {f : Fn} (h : Fn.ofName? s = some f) : f.name = s := by
  have := List.find?_some h
  simpa using this
theorem agg_ofName {s : Str} {f : Agg} (h : Agg.ofName? s = some f) : f.name = s := by
  have := List.find?_some h
  simpa using this

theorem build_inv {e x : Expr} (h : Expr.build e = .ok x) : x = e := by
  unfold Expr.build at h
  obtain ⟨t, _, h⟩ := bind_ok h
  cases h; rfl

theorem convs_all2 : ∀ (cs : List CE) (es : List Expr), CE.convs cs = .ok es → All2 (fun c e => c.conv = .ok e) cs es
  | [], es, h => by
    have : es = [] := by
      have h' : (Except.ok [] : Except Err (List Expr)) = .ok es := h
      cases h'; rfl
    subst this
    exact .nil
  | c :: cs, es, h => by
    rw [CE_convs_cons] at h
    obtain ⟨e, h1, h⟩ := bind_ok h
    obtain ⟨es', h2, h⟩ := bind_ok h
    cases h
    exact .cons h1 (convs_all2 cs es' h2)

theorem callOf_isCall {nm : List Str} {as : List Expr} {os : List Ord} {fl : Option Expr} {ns : Option Bool} {w : Option Win} {e : Expr}
    (h : callOf nm as os fl ns w = .ok e) : ∃ n, nm = [n] ∧ (¬ swapped n as → upper n ∉ ownSyntax → IsCall (upper n) as os e) ∧
      (upper n ∈ ownSyntax → SpecialCall os fl ns w (upper n) as e) := by
  unfold callOf at h
  rcases nm with _ | ⟨n, _ | ⟨m, nm⟩⟩
  · cases h
  · dsimp only at h
    refine ⟨n, rfl, fun hx ho => ?_, fun ho => ?_⟩
    rotate_left
    · have h1 : Fn.ofName? (upper n) = none := by
        rw [← List.contains_iff_mem] at ho
        exact List.find?_eq_none.2 fun f _ hf => by
          rw [← beq_iff_eq.1 hf] at ho
          revert ho; cases f <;> decide +kernel
      have h2 : Agg.ofName? (upper n) = none := by
        rw [← List.contains_iff_mem] at ho
        exact List.find?_eq_none.2 fun f _ hf => by
          rw [← beq_iff_eq.1 hf] at ho
          revert ho; cases f <;> decide +kernel
      rw [h1, h2] at h
      exact special_of h
    split at h
    · next f hf =>
      split at h
      · cases h
      · next hk =>
        split at h
        · cases build_inv h
          simp only [Bool.or_eq_true, not_or, Bool.not_eq_true', Bool.not_eq_true] at hk
          refine .func f (fn_ofName hf) ?_
          simpa using hk.1.1.2
        · cases h
    · split at h
      · next f hf =>
        cases build_inv h
        have : aggArgOrder f as = as := by
          unfold aggArgOrder
          split
          · next v a b => exact absurd ⟨(agg_ofName hf).symm, rfl⟩ hx
          · rfl
        rw [this]
        exact .agg f _ _ _ (agg_ofName hf)
      · exact absurd (List.contains_iff_mem.1 (special_of h).own) ho
  · cases h

/-- **C41.** A text that is a function call, in any case of letters and with any arguments, is read as a call
of the function of that name with the arguments in order, and is printed with that name (in upper case) and
the texts of these arguments in the same order.  Missing: the three-argument APPROX_PERCENTILE, whose last two
arguments are swapped (`C41_swapped`), and the functions with a syntax of their own under a quoted name (`C41_own`). -/
theorem C41_kept_partial (s : Str) (e : Expr) (name : List Tok) (q : Option Tok) (args : List CE) (ob : List CSort) (fl : Option CE)
    (ns : Option Bool) (w : Option CWin) (hp : P (.lv 0) (toks s) = some (.call name q args ob fl ns w, []))
    (h : expressionFromSql s = .ok e) :
    ∃ n as os, identTexts name = .ok [n] ∧ All2 (fun c a => c.conv = .ok a) args as ∧ CSort.convs ob = .ok os ∧
      (¬ swapped n as → upper n ∉ ownSyntax → IsCall (upper n) as os e ∧ ∀ o s', e.sql o = .ok s' → CallText o (upper n) as os s') := by
  rw [expressionFromSql, hp] at h
  dsimp only at h
  rw [CE_conv_call] at h
  obtain ⟨nm, h1, h⟩ := bind_ok h
  obtain ⟨w', h2, h⟩ := bind_ok h
  obtain ⟨os, h3, h⟩ := bind_ok h
  obtain ⟨f', h4, h⟩ := bind_ok h
  obtain ⟨as, h5, h⟩ := bind_ok h
  obtain ⟨n, rfl, hc, _⟩ := callOf_isCall h
  exact ⟨n, as, os, h1, convs_all2 _ _ h5, h3, fun hx hw => ⟨hc hx hw, fun o s' hs => C41_text _ _ _ _ o s' (hc hx hw) hs⟩⟩

/-- **C41.** The functions with a syntax of their own, called by a quoted name: if the call is accepted it stands for the word
(`"current_date"()` is `CURRENT_DATE`), for NORMALIZE without a form, or for LISTAGG with the sort keys as its order. -/
theorem C41_own (s : Str) (e : Expr) (name : List Tok) (q : Option Tok) (args : List CE) (ob : List CSort) (fl : Option CE)
    (ns : Option Bool) (w : Option CWin) (hp : P (.lv 0) (toks s) = some (.call name q args ob fl ns w, []))
    (h : expressionFromSql s = .ok e) :
    ∃ n as os, identTexts name = .ok [n] ∧ All2 (fun c a => c.conv = .ok a) args as ∧ CSort.convs ob = .ok os ∧
      (upper n ∈ ownSyntax → ∃ fl' w', CE.convOpt fl = .ok fl' ∧ CWin.convOpt w = .ok w' ∧ SpecialCall os fl' ns w' (upper n) as e) := by
  rw [expressionFromSql, hp] at h
  dsimp only at h
  rw [CE_conv_call] at h
  obtain ⟨nm, h1, h⟩ := bind_ok h
  obtain ⟨w', h2, h⟩ := bind_ok h
  obtain ⟨os, h3, h⟩ := bind_ok h
  obtain ⟨f', h4, h⟩ := bind_ok h
  obtain ⟨as, h5, h⟩ := bind_ok h
  obtain ⟨n, rfl, _, hc⟩ := callOf_isCall h
  exact ⟨n, as, os, h1, convs_all2 _ _ h5, h3, fun hw => ⟨f', w', h4, h2, hc hw⟩⟩

/-- **C41.** The words are printed as they are written without the quotes, and the parentheses are gone. -/
theorem C41_words {n : Str} {e : Expr} (h : (n, e) ∈ wordCalls) (o : Opts) : e.sql o = .ok n := by
  simp only [wordCalls, List.mem_cons, List.not_mem_nil, or_false, Prod.mk.injEq] at h
  rcases h with h | h | h | h | h | h | h | h | h <;> rw [h.1, h.2] <;> rfl

/-- **C41.** The same for a call with a star, such as `COUNT(*)` or `count(t.*)`. -/
theorem C41_star (s : Str) (e : Expr) (name : List Tok) (label : Option Tok) (fl : Option CE) (w : Option CWin)
    (hp : P (.lv 0) (toks s) = some (.callStar name label fl w, [])) (h : expressionFromSql s = .ok e) :
    ∃ n l, identTexts name = .ok [n] ∧ identOpt label = .ok l ∧
      ((IsCall (upper n) [.star l .unknown] [] e ∧ ∀ o s', e.sql o = .ok s' → CallText o (upper n) [.star l .unknown] [] s') ∨
        upper n = c% "NORMALIZE" ∧ e = .normalize (.star l .unknown) none) := by
  rw [expressionFromSql, hp] at h
  dsimp only at h
  rw [CE_conv_callStar] at h
  obtain ⟨nm, h1, h⟩ := bind_ok h
  obtain ⟨w', h2, h⟩ := bind_ok h
  obtain ⟨f', h4, h⟩ := bind_ok h
  obtain ⟨l, h5, h⟩ := bind_ok h
  obtain ⟨n, rfl, hc, hs⟩ := callOf_isCall h
  by_cases hw : upper n ∈ ownSyntax
  · refine ⟨n, l, h1, h5, .inr ?_⟩
    exact (hs hw).star
  · have hc := hc (fun hx => absurd hx.2 (by simp)) hw
    exact ⟨n, l, h1, h5, .inl ⟨hc, fun o s' hs => C41_text _ _ _ _ o s' hc hs⟩⟩

theorem expr_of_parserN {s : Str} {x : Except Err Expr} (n : Nat)
    (h : (parserN n (.lv 0) (toks s)).map (fun p => (p.1.conv, p.2)) = some (x, [])) : expressionFromSql s = x := by
  cases hp : parserN n (.lv 0) (toks s) with
  | none => rw [hp] at h; exact nomatch h
  | some p =>
    rw [hp] at h
    obtain ⟨c, r⟩ := p
    simp only [Option.map_some, Option.some.injEq, Prod.mk.injEq] at h
    obtain ⟨h1, rfl⟩ := h
    rw [expressionFromSql, P_of_parserN hp]
    exact h1

/-- A call with this number of arguments that can be converted. -/
def goodCall (k : Nat) : CE × List Tok → Bool
  | (.call n q as ob fl ns w, []) => as.length == k && (CE.conv (.call n q as ob fl ns w)).isOk
  | _ => false

theorem goodCall_spec {k : Nat} {s : Str} (n : Nat) (h : (parserN n (.lv 0) (toks s)).map (goodCall k) = some true) :
    ∃ name q args ob fl ns w e, P (.lv 0) (toks s) = some (.call name q args ob fl ns w, []) ∧ args.length = k ∧
      expressionFromSql s = .ok e := by
  cases hp : parserN n (.lv 0) (toks s) with
  | none => rw [hp] at h; exact nomatch h
  | some p =>
    rw [hp] at h
    simp only [Option.map_some, Option.some.injEq] at h
    obtain ⟨c, r⟩ := p
    unfold goodCall at h
    split at h
    · next nm q as ob fl ns w hc =>
      cases hc
      simp only [Bool.and_eq_true, beq_iff_eq] at h
      cases hk : (CE.conv (.call nm q as ob fl ns w)) with
      | error x => rw [hk] at h; exact absurd h.2 (by simp [Except.isOk, Except.toBool])
      | ok e =>
        refine ⟨nm, q, as, ob, fl, ns, w, e, P_of_parserN hp, h.1, ?_⟩
        rw [expressionFromSql, P_of_parserN hp]
        exact hk
    · cases h

/-- The hypotheses are met, with everything a call can have. -/
theorem C41_reached : ∃ name q args ob fl ns w e,
    P (.lv 0) (toks (c% "max_By(a + 1, f ORDER BY b DESC) FILTER (WHERE c) OVER (ROWS CURRENT ROW)")) = some (.call name q args ob fl ns w, []) ∧
      args.length = 2 ∧ expressionFromSql (c% "max_By(a + 1, f ORDER BY b DESC) FILTER (WHERE c) OVER (ROWS CURRENT ROW)") = .ok e :=
  goodCall_spec 60 (by krfl)

/-- **C41 is false in general**: the second and third argument of APPROX_PERCENTILE are swapped. -/
theorem C41_swapped : expressionFromSql (c% "APPROX_PERCENTILE(a, b, c)") = .ok (.agg .approxPercentile [col (c% "a"), col (c% "c"), col (c% "b")] [] none none false) ∧
    (Expr.agg .approxPercentile [col (c% "a"), col (c% "c"), col (c% "b")] [] none none false).sql {} = .ok (c% "APPROX_PERCENTILE(\"a\",\"c\",\"b\")") :=
  ⟨expr_of_parserN 60 (by krfl), rfl⟩

/-- The arguments are kept, but the word DISTINCT in front of them is not. -/
theorem C41_distinct_lost : expressionFromSql (c% "COUNT(DISTINCT a)") = .ok (.agg .count [col (c% "a")] [] none none false) ∧
    (Expr.agg .count [col (c% "a")] [] none none false).sql {} = .ok (c% "COUNT(\"a\")") :=
  ⟨expr_of_parserN 60 (by krfl), rfl⟩

theorem C41_own_reached : expressionFromSql (c% "\"Current_Date\"()") = .ok (.session .currentDate) ∧
    expressionFromSql (c% "\"localtime\"()") = .ok (.curTime .localTime 3) ∧
    expressionFromSql (c% "\"listagg\"(a ORDER BY b DESC)") = .ok (.listagg (col (c% "a")) (c% " ") none [.mk (col (c% "b")) true false]) ∧
    (Expr.listagg (col (c% "a")) (c% " ") none [.mk (col (c% "b")) true false]).sql {} = .ok (c% "LISTAGG(\"a\") WITHIN GROUP (ORDER BY \"b\" DESC)") ∧
    expressionFromSql (c% "\"normalize\"(a)") = .ok (.normalize (col (c% "a")) none) :=
  ⟨expr_of_parserN 60 (by krfl), expr_of_parserN 60 (by krfl), expr_of_parserN 60 (by krfl), rfl, expr_of_parserN 60 (by krfl)⟩

/-- A precision cannot be passed in this way, and LISTAGG needs its order. -/
theorem C41_own_fails : expressionFromSql (c% "\"current_timestamp\"(6)") = .error .assertion ∧
    expressionFromSql (c% "\"current_user\"(a)") = .error .typeError ∧
    expressionFromSql (c% "\"current_path\"() FILTER (WHERE a)") = .error .assertion ∧
    expressionFromSql (c% "\"listagg\"(a)") = .error .assertion :=
  ⟨expr_of_parserN 60 (by krfl), expr_of_parserN 60 (by krfl), expr_of_parserN 60 (by krfl), expr_of_parserN 60 (by krfl)⟩

end Treeno.Props
