import Verif.Lemmas.OneLine
/-!
# C18: default printing is one line
-/
set_option autoImplicit false
namespace Treeno
open Spec

theorem nb_names {cols : List Str} {o : Opts} (ho : o.mode = .default) (h : strsAll nb cols) {s : Str}
    (hs : joinStmts cols o = .ok s) : nb s := nb_joinStmts ho (by decide) h hs

theorem mem_append_nb {a b : Entries} (ha : ∀ e ∈ a, nb e.1 ∧ nb e.2) (hb : ∀ e ∈ b, nb e.1 ∧ nb e.2) :
    ∀ e ∈ a ++ b, nb e.1 ∧ nb e.2 := by
  intro e he
  rcases List.mem_append.mp he with h | h
  · exact ha e h
  · exact hb e h

theorem optEntry_nb {k : Str} {s : Option Str} (hk : nb k) (hs : optAll nb s) :
    ∀ e ∈ optEntry k s, nb e.1 ∧ nb e.2 := by
  cases s with
  | none => intro e he; cases he
  | some s =>
    intro e he
    simp only [optEntry, List.mem_singleton] at he
    subst he
    exact ⟨hk, hs⟩

theorem single_nb {k s : Str} (hk : nb k) (hs : nb s) : ∀ e ∈ [(k, s)], nb e.1 ∧ nb e.2 := by
  intro e he
  simp only [List.mem_singleton] at he
  subst he
  exact ⟨hk, hs⟩

theorem rows_nb (off lim : Option Int) : ∀ e ∈ rowsEntries off lim, nb e.1 ∧ nb e.2 := by
  unfold rowsEntries
  apply mem_append_nb
  · split
    · split
      · exact single_nb (by decide) (nb_int _)
      · intro e he; cases he
    · intro e he; cases he
  · split
    · split
      · exact single_nb (by decide) (nb_int _)
      · intro e he; cases he
    · intro e he; cases he

theorem optMap_nb {f : Str → Str} (hf : ∀ s, nb s → nb (f s)) {s : Option Str} (h : optAll nb s) :
    optAll nb (s.map f) := by
  cases s with
  | none => trivial
  | some s => exact hf s h

mutual
theorem nb_expr : ∀ (e : Expr) (neg : Bool) (o : Opts) (s : Str), o.mode = .default →
    exprAll nb e → e.sqlN neg o = .ok s → nb s
  | .lit v t, neg, o, s, ho, ha, h => by cases h; exact nb_lit ha
  | .field n t ty, neg, o, s, ho, ha, h => by
    cases h
    obtain ⟨h1, h2⟩ := ha
    apply nb_chain
    intro x hx
    simp only [List.mem_cons, List.not_mem_nil, or_false] at hx
    rcases hx with rfl | rfl
    · exact nb_truthy h2
    · exact h1
  | .fieldOf n b ty, neg, o, s, ho, ha, h => by
    obtain ⟨h1, h2⟩ := ha
    rw [Expr_sqlN_fieldOf] at h
    obtain ⟨x, hx, h⟩ := bind_ok h
    cases h
    have := nb_expr b _ _ _ ho h2 hx
    apply nb_chain
    intro y hy
    simp only [List.mem_cons, List.not_mem_nil, or_false] at hy
    rcases hy with rfl | rfl
    · exact this
    · exact h1
  | .alias v n, neg, o, s, ho, ha, h => by
    obtain ⟨h1, h2⟩ := ha
    rw [Expr_sqlN_alias] at h
    obtain ⟨x, hx, h⟩ := bind_ok h
    cases h
    exact nb_app (nb_app (nb_expr v _ _ _ ho h2 hx) (by decide)) (nb_quoteIdent h1)
  | .star t ty, neg, o, s, ho, ha, h => by cases h; exact nb_app (nb_star ha) (by decide)
  | .starOf b ty, neg, o, s, ho, ha, h => by
    rw [Expr_sqlN_starOf] at h
    obtain ⟨x, hx, h⟩ := bind_ok h
    cases h
    exact nb_app (nb_expr b _ _ _ ho ha hx) (by decide)
  | .aliasedStar st as, neg, o, s, ho, ha, h => by
    obtain ⟨h1, h2⟩ := ha
    rw [Expr_sqlN_aliasedStar] at h
    obtain ⟨x, hx, h⟩ := bind_ok h
    obtain ⟨y, hy, h⟩ := bind_ok h
    cases h
    exact nb_app (nb_app (nb_app (nb_expr st _ _ _ ho h1 hy) (by decide)) (nb_names ho h2 hx)) (by decide)
  | .var n, neg, o, s, ho, ha, h => by cases h; exact ha
  | .lam ins b, neg, o, s, ho, ha, h => by
    obtain ⟨h1, h2⟩ := ha
    rw [Expr_sqlN_lam] at h
    obtain ⟨x, hx, h⟩ := bind_ok h
    obtain ⟨y, hy, h⟩ := bind_ok h
    cases h
    have hx' := nb_names ho h1 hx
    exact nb_app (nb_app (nb_ite (nb_parenS hx') hx') (by decide)) (nb_expr b _ _ _ ho h2 hy)
  | .un op v, neg, o, s, ho, ha, h => by
    rw [Expr_sqlN_un] at h
    obtain ⟨x, hx, h⟩ := bind_ok h
    cases h
    refine nb_app (by cases op <;> decide)
      (nb_pemdas (fun y hy => nb_expr v _ _ _ ho ha hy) (fun y hy => nb_expr v _ _ _ rfl ha hy) hx)
  | .bin op l r, neg, o, s, ho, ha, h => by
    obtain ⟨h1, h2⟩ := ha
    rw [Expr_sqlN_bin] at h
    obtain ⟨x, hx, h⟩ := bind_ok h
    obtain ⟨y, hy, h⟩ := bind_ok h
    cases h
    have ho' : (if neg = true ∧ op = .ne then dfltOpts else o).mode = .default := by split <;> first | rfl | exact ho
    exact nb_binText ho'
      (nb_pemdas (fun y hy => nb_expr l _ _ _ ho' h1 hy) (fun y hy => nb_expr l _ _ _ rfl h1 hy) hx)
      (nb_pemdas (fun y hy => nb_expr r _ _ _ ho' h2 hy) (fun y hy => nb_expr r _ _ _ rfl h2 hy) hy)
  | .not v, neg, o, s, ho, ha, h => by
    rw [Expr_sqlN_not] at h
    split at h
    · exact nb_expr v _ _ _ ho ha h
    · obtain ⟨x, hx, h⟩ := bind_ok h
      cases h
      exact nb_app (by decide)
        (nb_pemdas (fun y hy => nb_expr v _ _ _ ho ha hy) (fun y hy => nb_expr v _ _ _ rfl ha hy) hx)
  | .isNull v, neg, o, s, ho, ha, h => by
    rw [Expr_sqlN_isNull] at h
    obtain ⟨x, hx, h⟩ := bind_ok h
    cases h
    exact nb_app
      (nb_pemdas (fun y hy => nb_expr v _ _ _ ho ha hy) (fun y hy => nb_expr v _ _ _ rfl ha hy) hx)
      (nb_ite (by decide) (by decide))
  | .between v l u, neg, o, s, ho, ha, h => by
    obtain ⟨h1, h2, h3⟩ := ha
    rw [Expr_sqlN_between] at h
    obtain ⟨x, hx, h⟩ := bind_ok h
    obtain ⟨y, hy, h⟩ := bind_ok h
    obtain ⟨z, hz, h⟩ := bind_ok h
    cases h
    refine nb_app (nb_app (nb_app (nb_app (nb_app ?_ (nb_ite (by decide) (by decide))) (by decide)) ?_) (by decide)) ?_
    · exact nb_pemdas (fun y hy => nb_expr v _ _ _ ho h1 hy) (fun y hy => nb_expr v _ _ _ rfl h1 hy) hx
    · exact nb_pemdas (fun y hy => nb_expr l _ _ _ ho h2 hy) (fun y hy => nb_expr l _ _ _ rfl h2 hy) hy
    · exact nb_pemdas (fun y hy => nb_expr u _ _ _ ho h3 hy) (fun y hy => nb_expr u _ _ _ rfl h3 hy) hz
  | .array vs, neg, o, s, ho, ha, h => by
    rw [Expr_sqlN_array] at h
    obtain ⟨x, hx, h⟩ := bind_ok h
    obtain ⟨y, hy, h⟩ := bind_ok h
    cases h
    exact nb_app (nb_app (by decide) (nb_joinStmts ho (by decide) (nb_exprs vs _ _ ho ha hx) hy)) (by decide)
  | .inQuery v q, neg, o, s, ho, ha, h => by
    obtain ⟨h1, h2⟩ := ha
    rw [Expr_sqlN_inQuery] at h
    obtain ⟨x, hx, h⟩ := bind_ok h
    obtain ⟨y, hy, h⟩ := bind_ok h
    cases h
    refine nb_app (nb_app (nb_app (nb_app ?_ (nb_ite (by decide) (by decide))) (by decide)) ?_) (by decide)
    · exact nb_pemdas (fun y hy => nb_expr v _ _ _ ho h1 hy) (fun y hy => nb_expr v _ _ _ rfl h1 hy) hx
    · exact nb_query q _ _ ho h2 hy
  | .inList v es, neg, o, s, ho, ha, h => by
    obtain ⟨h1, h2⟩ := ha
    rw [Expr_sqlN_inList] at h
    obtain ⟨x, hx, h⟩ := bind_ok h
    obtain ⟨y, hy, h⟩ := bind_ok h
    obtain ⟨z, hz, h⟩ := bind_ok h
    cases h
    refine nb_app (nb_app (nb_app (nb_app ?_ (nb_ite (by decide) (by decide))) (by decide)) ?_) (by decide)
    · exact nb_pemdas (fun y hy => nb_expr v _ _ _ ho h1 hy) (fun y hy => nb_expr v _ _ _ rfl h1 hy) hz
    · exact nb_joinStmts ho (by decide) (nb_exprs es _ _ ho h2 hx) hy
  | .like v p e, neg, o, s, ho, ha, h => by
    obtain ⟨h1, h2, h3⟩ := ha
    rw [Expr_sqlN_like] at h
    obtain ⟨x, hx, h⟩ := bind_ok h
    obtain ⟨y, hy, h⟩ := bind_ok h
    obtain ⟨z, hz, h⟩ := bind_ok h
    cases h
    refine nb_app (nb_app (nb_app (nb_app ?_ (nb_ite (by decide) (by decide))) (by decide)) ?_) ?_
    · exact nb_pemdas (fun y hy => nb_expr v _ _ _ ho h1 hy) (fun y hy => nb_expr v _ _ _ rfl h1 hy) hx
    · exact nb_pemdas (fun y hy => nb_expr p _ _ _ ho h2 hy) (fun y hy => nb_expr p _ _ _ rfl h2 hy) hy
    · exact nb_optText (by decide) (nb_exprOpt e _ _ ho h3 hz)
  | .typeCtor v t, neg, o, s, ho, ha, h => by
    cases h; exact nb_app (nb_app ha.2 (by decide)) (nb_quoteLit ha.1)
  | .row vs, neg, o, s, ho, ha, h => by
    rw [Expr_sqlN_row] at h
    obtain ⟨x, hx, h⟩ := bind_ok h
    obtain ⟨y, hy, h⟩ := bind_ok h
    cases h
    exact nb_app (nb_app (by decide) (nb_joinStmts ho (by decide) (nb_exprs vs _ _ ho ha hx) hy)) (by decide)
  | .interval v f t, neg, o, s, ho, ha, h => by
    obtain ⟨h1, h2, h3⟩ := ha
    cases h
    exact nb_app (nb_app (nb_app (nb_app (by decide) h1) (by decide)) h2) (nb_optText (by decide) (nb_truthy h3))
  | .cast tr e t, neg, o, s, ho, ha, h => by
    rw [Expr_sqlN_cast] at h
    obtain ⟨x, hx, h⟩ := bind_ok h
    cases h
    exact nb_app (nb_app (nb_app (nb_app (nb_ite (by decide) (by decide)) (nb_expr e _ _ _ ho ha hx))
      (by decide)) (nb_ty t)) (by decide)
  | .subscript v i, neg, o, s, ho, ha, h => by
    obtain ⟨h1, h2⟩ := ha
    rw [Expr_sqlN_subscript] at h
    obtain ⟨x, hx, h⟩ := bind_ok h
    obtain ⟨y, hy, h⟩ := bind_ok h
    cases h
    exact nb_app (nb_app (nb_app (nb_expr v _ _ _ ho h1 hx) (by decide)) (nb_expr i _ _ _ ho h2 hy)) (by decide)
  | .case v bs e, neg, o, s, ho, ha, h => by
    obtain ⟨h1, h2, h3⟩ := ha
    rw [Expr_sqlN_case] at h
    obtain ⟨x, hx, h⟩ := bind_ok h
    obtain ⟨y, hy, h⟩ := bind_ok h
    obtain ⟨z, hz, h⟩ := bind_ok h
    cases h
    have hsp := nb_spacing ho
    have hx' := nb_whens bs _ _ ho h2 hx
    have hy' := nb_exprOpt e _ _ ho h3 hy
    refine nb_app (nb_app (nb_app (nb_app (by decide) (nb_optText nb_nil (nb_exprOpt v _ _ ho h1 hz)))
      (nb_pad (nb_app hsp (nb_join hsp ?_)) _)) hsp) (by decide)
    intro t ht
    rcases List.mem_append.mp ht with ht | ht
    · exact hx' t ht
    · cases y with
      | none => cases ht
      | some y =>
        simp only [Option.map_some, Option.toList_some, List.mem_singleton] at ht
        subst ht
        exact nb_app (by decide) hy'
  | .func f as, neg, o, s, ho, ha, h => by
    rw [Expr_sqlN_func] at h
    obtain ⟨x, hx, h⟩ := bind_ok h
    obtain ⟨y, hy, h⟩ := bind_ok h
    cases h
    exact nb_app (nb_app (nb_app (nb_fnName f) (by decide))
      (nb_joinStmts ho (by decide) (nb_exprs as _ _ ho ha hx) hy)) (by decide)
  | .agg f as ob fl w ign, neg, o, s, ho, ha, h => by
    obtain ⟨h1, h2, h3, h4⟩ := ha
    rw [Expr_sqlN_agg] at h
    obtain ⟨x, hx, h⟩ := bind_ok h
    obtain ⟨y, hy, h⟩ := bind_ok h
    obtain ⟨os, hos, h⟩ := bind_ok h
    obtain ⟨z, hz, h⟩ := bind_ok h
    obtain ⟨fs, hfs, h⟩ := bind_ok h
    obtain ⟨ws, hws, h⟩ := bind_ok h
    obtain ⟨cs, hcs, h⟩ := bind_ok h
    cases h
    have hy' := nb_joinStmts ho (by decide) (nb_exprs as _ _ ho h1 hx) hy
    have hz' := nb_aggArgs ho hy' (nb_ords ob _ _ ho h2 hos) hz
    have hf := nb_exprOpt fl _ _ ho h3 hfs
    have hw := nb_winOpt w _ _ ho h4 hws
    have hcs' : nb cs := by
      refine nb_print ho ?_ hcs
      refine mem_append_nb (mem_append_nb (optEntry_nb (by decide) ?_) ?_) (optEntry_nb (by decide) ?_)
      · exact optMap_nb (fun s hs => nb_app (nb_app (by decide) hs) (by decide)) hf
      · cases ign
        · intro e he; cases he
        · exact single_nb (by decide) (by decide)
      · exact optMap_nb (fun s hs => nb_parenS hs) hw
    exact nb_app (nb_app (nb_app (nb_app (nb_aggName f) (by decide)) hz') (by decide))
      (nb_ite nb_nil (nb_pad (nb_app (nb_spacing ho) hcs') _))
  | .listagg v sep ov ob, neg, o, s, ho, ha, h => by
    obtain ⟨h1, h2, h3, h4⟩ := ha
    rw [Expr_sqlN_listagg] at h
    obtain ⟨x, hx, h⟩ := bind_ok h
    obtain ⟨y, hy, h⟩ := bind_ok h
    obtain ⟨os, hos, h⟩ := bind_ok h
    obtain ⟨z, hz, h⟩ := bind_ok h
    cases h
    have hy' := nb_listaggArgs ho (nb_expr v _ _ _ ho h2 hx) h1 h3 hy
    have hz' := nb_orderBy ho (nb_ords ob _ _ ho h4 hos) hz
    exact nb_app (nb_app (nb_app (by decide) hy') (by decide))
      (nb_pad (nb_app (nb_spacing ho) (nb_app (nb_app (by decide) hz') (by decide))) _)
  | .curTime f p, neg, o, s, ho, ha, h => by
    cases h
    exact nb_app (by cases f <;> decide) (nb_ite (nb_parenS (nb_int p)) nb_nil)
  | .session f, neg, o, s, ho, ha, h => by cases h; cases f <;> decide
  | .normalize v fo, neg, o, s, ho, ha, h => by cases h
  | .query q, neg, o, s, ho, ha, h => nb_query q _ _ ho ha h
theorem nb_exprOpt : ∀ (e : Option Expr) (o : Opts) (s : Option Str), o.mode = .default →
    exprOptAll nb e → Expr.sqlOpt o e = .ok s → optAll nb s
  | none, o, s, ho, ha, h => by cases h; trivial
  | some e, o, s, ho, ha, h => by
    rw [Expr_sqlOpt_some] at h
    obtain ⟨x, hx, h⟩ := bind_ok h
    cases h
    exact nb_expr e _ _ _ ho ha hx
theorem nb_exprs : ∀ (es : List Expr) (o : Opts) (ss : List Str), o.mode = .default →
    exprsAll nb es → Expr.sqls o es = .ok ss → ∀ s ∈ ss, nb s
  | [], o, ss, ho, ha, h => by cases h; intro s hs; cases hs
  | e :: es, o, ss, ho, ha, h => by
    rw [Expr_sqls_cons] at h
    obtain ⟨x, hx, h⟩ := bind_ok h
    obtain ⟨y, hy, h⟩ := bind_ok h
    cases h
    intro s hs
    have h1 := nb_expr e _ _ _ ho ha.1 hx
    have h2 := nb_exprs es _ _ ho ha.2 hy
    rcases List.mem_cons.mp hs with rfl | hs
    · exact h1
    · exact h2 s hs
theorem nb_sets : ∀ (es : List (List Expr)) (o : Opts) (ss : List Str), o.mode = .default →
    listsAll nb es → Expr.setSqls o es = .ok ss → ∀ s ∈ ss, nb s
  | [], o, ss, ho, ha, h => by cases h; intro s hs; cases hs
  | e :: es, o, ss, ho, ha, h => by
    rw [Expr_setSqls_cons] at h
    obtain ⟨w, hw, h⟩ := bind_ok h
    obtain ⟨x, hx, h⟩ := bind_ok h
    obtain ⟨y, hy, h⟩ := bind_ok h
    cases h
    intro s hs
    have h1 := nb_setText ho (nb_exprs e _ _ ho ha.1 hw) hx
    have h2 := nb_sets es _ _ ho ha.2 hy
    rcases List.mem_cons.mp hs with rfl | hs
    · exact h1
    · exact h2 s hs
theorem nb_whens : ∀ (es : List (Expr × Expr)) (o : Opts) (ss : List Str), o.mode = .default →
    whensAll nb es → Expr.whens o es = .ok ss → ∀ s ∈ ss, nb s
  | [], o, ss, ho, ha, h => by cases h; intro s hs; cases hs
  | (c, v) :: es, o, ss, ho, ha, h => by
    rw [Expr_whens_cons] at h
    obtain ⟨w, hw, h⟩ := bind_ok h
    obtain ⟨x, hx, h⟩ := bind_ok h
    obtain ⟨y, hy, h⟩ := bind_ok h
    cases h
    intro s hs
    have h0 := nb_expr c _ _ _ ho ha.1 hw
    have h1 := nb_expr v _ _ _ ho ha.2.1 hx
    have h2 := nb_whens es _ _ ho ha.2.2 hy
    rcases List.mem_cons.mp hs with rfl | hs
    · exact nb_app (nb_app (nb_app (by decide) h0) (by decide)) h1
    · exact h2 s hs
theorem nb_ord : ∀ (e : Ord) (o : Opts) (s : Str), o.mode = .default →
    ordAll nb e → e.sql o = .ok s → nb s
  | .mk v d nf, o, s, ho, ha, h => by
    rw [Ord_sql_mk] at h
    obtain ⟨x, hx, h⟩ := bind_ok h
    cases h
    exact nb_app (nb_app (nb_expr v _ _ _ ho ha hx) (nb_ite (by decide) (by decide))) (nb_ite (by decide) (by decide))
theorem nb_ords : ∀ (es : List Ord) (o : Opts) (ss : List Str), o.mode = .default →
    ordsAll nb es → Ord.sqls o es = .ok ss → ∀ s ∈ ss, nb s
  | [], o, ss, ho, ha, h => by cases h; intro s hs; cases hs
  | e :: es, o, ss, ho, ha, h => by
    rw [Ord_sqls_cons] at h
    obtain ⟨x, hx, h⟩ := bind_ok h
    obtain ⟨y, hy, h⟩ := bind_ok h
    cases h
    intro s hs
    have h1 := nb_ord e _ _ ho ha.1 hx
    have h2 := nb_ords es _ _ ho ha.2 hy
    rcases List.mem_cons.mp hs with rfl | hs
    · exact h1
    · exact h2 s hs
theorem nb_bound : ∀ (e : Bound) (o : Opts) (s : Str), o.mode = .default →
    boundAll nb e → e.sql o = .ok s → nb s
  | .bounded t e, o, s, ho, ha, h => by
    rw [Bound_sql_bounded] at h
    obtain ⟨x, hx, h⟩ := bind_ok h
    cases h
    exact nb_app (nb_app (nb_expr e _ _ _ ho ha hx) (by decide)) (by cases t <;> decide)
  | .unbounded t, o, s, ho, ha, h => by cases h; cases t <;> decide
  | .current, o, s, ho, ha, h => by cases h; decide
theorem nb_win : ∀ (e : Win) (o : Opts) (s : Str), o.mode = .default →
    winAll nb e → e.sql o = .ok s → nb s
  | .mk p ob ps f st en, o, s, ho, ha, h => by
    obtain ⟨h1, h2, h3, h4, h5⟩ := ha
    rw [Win_sql_mk] at h
    obtain ⟨x, hx, h⟩ := bind_ok h
    obtain ⟨pe, hpe, h⟩ := bind_ok h
    obtain ⟨y, hy, h⟩ := bind_ok h
    obtain ⟨oe, hoe, h⟩ := bind_ok h
    obtain ⟨a, ha, h⟩ := bind_ok h
    obtain ⟨b, hb, h⟩ := bind_ok h
    refine nb_print ho ?_ h
    have ha' := nb_bound st _ _ ho h4 ha
    have hb' := nb_bound en _ _ ho h5 hb
    refine mem_append_nb (mem_append_nb (mem_append_nb ?_
      (nb_listEntry ho (by decide) (by decide) (nb_exprs ps _ _ ho h3 hx) hpe))
      (nb_listEntry ho (by decide) (by decide) (nb_ords ob _ _ ho h2 hy) hoe)) (single_nb (by cases f <;> decide) ?_)
    · have := nb_truthy h1
      unfold parentEntry
      split
      · rename_i e; rw [e] at this; exact single_nb this nb_nil
      · intro e he; cases he
    · apply nb_join (by decide)
      intro t ht
      simp only [List.mem_cons, List.not_mem_nil, or_false] at ht
      rcases ht with rfl | rfl | rfl | rfl
      · decide
      · exact ha'
      · decide
      · exact hb'
theorem nb_winOpt : ∀ (e : Option Win) (o : Opts) (s : Option Str), o.mode = .default →
    winOptAll nb e → Win.sqlOpt o e = .ok s → optAll nb s
  | none, o, s, ho, ha, h => by cases h; trivial
  | some e, o, s, ho, ha, h => by
    rw [Win_sqlOpt_some] at h
    obtain ⟨x, hx, h⟩ := bind_ok h
    cases h
    exact nb_win e _ _ ho ha hx
theorem nb_grp : ∀ (e : Grp) (o : Opts) (s : Str), o.mode = .default →
    grpAll nb e → e.sql o = .ok s → nb s
  | .set vs, o, s, ho, ha, h => by
    rw [Grp_sql_set] at h
    obtain ⟨x, hx, h⟩ := bind_ok h
    exact nb_setText ho (nb_exprs vs _ _ ho ha hx) h
  | .sets gs, o, s, ho, ha, h => by
    rw [Grp_sql_sets] at h
    obtain ⟨x, hx, h⟩ := bind_ok h
    obtain ⟨y, hy, h⟩ := bind_ok h
    cases h
    exact nb_app (nb_app (by decide) (nb_joinStmts ho (by decide) (nb_sets gs _ _ ho ha hx) hy)) (by decide)
  | .cube vs, o, s, ho, ha, h => by
    rw [Grp_sql_cube] at h
    obtain ⟨x, hx, h⟩ := bind_ok h
    obtain ⟨y, hy, h⟩ := bind_ok h
    cases h
    exact nb_app (nb_app (by decide) (nb_joinStmts ho (by decide) (nb_exprs vs _ _ ho ha hx) hy)) (by decide)
  | .rollup vs, o, s, ho, ha, h => by
    rw [Grp_sql_rollup] at h
    obtain ⟨x, hx, h⟩ := bind_ok h
    obtain ⟨y, hy, h⟩ := bind_ok h
    cases h
    exact nb_app (nb_app (by decide) (nb_joinStmts ho (by decide) (nb_exprs vs _ _ ho ha hx) hy)) (by decide)
theorem nb_grps : ∀ (es : List Grp) (o : Opts) (ss : List Str), o.mode = .default →
    grpsAll nb es → Grp.sqls o es = .ok ss → ∀ s ∈ ss, nb s
  | [], o, ss, ho, ha, h => by cases h; intro s hs; cases hs
  | e :: es, o, ss, ho, ha, h => by
    rw [Grp_sqls_cons] at h
    obtain ⟨x, hx, h⟩ := bind_ok h
    obtain ⟨y, hy, h⟩ := bind_ok h
    cases h
    intro s hs
    have h1 := nb_grp e _ _ ho ha.1 hx
    have h2 := nb_grps es _ _ ho ha.2 hy
    rcases List.mem_cons.mp hs with rfl | hs
    · exact h1
    · exact h2 s hs
theorem nb_groupBy : ∀ (e : GroupBy) (o : Opts) (s : Str), o.mode = .default →
    groupByAll nb e → e.sql o = .ok s → nb s
  | .mk gs d, o, s, ho, ha, h => by
    rw [GroupBy_sql_mk] at h
    obtain ⟨x, hx, h⟩ := bind_ok h
    obtain ⟨y, hy, h⟩ := bind_ok h
    cases h
    have := nb_joinStmts ho (by decide) (nb_grps gs _ _ ho ha hx) hy
    exact nb_ite (nb_app (by decide) this) this
theorem nb_groupByOpt : ∀ (e : Option GroupBy) (o : Opts) (s : Option Str), o.mode = .default →
    groupByOptAll nb e → GroupBy.sqlOpt o e = .ok s → optAll nb s
  | none, o, s, ho, ha, h => by cases h; trivial
  | some e, o, s, ho, ha, h => by
    rw [GroupBy_sqlOpt_some] at h
    obtain ⟨x, hx, h⟩ := bind_ok h
    cases h
    exact nb_groupBy e _ _ ho ha hx
theorem nb_query : ∀ (q : Query) (o : Opts) (s : Str), o.mode = .default →
    queryAll nb q → q.sql o = .ok s → nb s
  | .mk body off lim ob w, o, s, ho, ha, h => by
    obtain ⟨h1, h2, h3⟩ := ha
    rw [Query_sql_mk] at h
    refine nb_body body _ _ _ _ ho h1 (fun we hwe => ?_) (fun ce hce => ?_) h
    · obtain ⟨ws, hws, hwe⟩ := bind_ok hwe
      exact nb_listEntry ho (by decide) (by decide) (nb_nameds w _ _ ho h3 hws) hwe
    · obtain ⟨os, hos, hce⟩ := bind_ok hce
      obtain ⟨oe, hoe, hce⟩ := bind_ok hce
      cases hce
      have ho' := nb_listEntry ho (by decide) (by decide) (nb_ords ob _ _ ho h2 hos) hoe
      exact mem_append_nb ho' (rows_nb off lim)
theorem nb_body : ∀ (b : QBody) (o : Opts) (we ce : Except Err Entries) (s : Str), o.mode = .default →
    bodyAll nb b → (∀ x, we = .ok x → ∀ e ∈ x, nb e.1 ∧ nb e.2) → (∀ x, ce = .ok x → ∀ e ∈ x, nb e.1 ∧ nb e.2) →
    b.sql o we ce = .ok s → nb s
  | .select items fr wh gb hv d wins, o, we, ce, s, ho, ha, hwe, hce, h => by
    obtain ⟨h1, h2, h3, h4, h5, h6⟩ := ha
    rw [QBody_sql_select] at h
    obtain ⟨we, hwe', h⟩ := bind_ok h
    replace hwe := hwe _ hwe'
    obtain ⟨ss, hss, h⟩ := bind_ok h
    obtain ⟨j, hj, h⟩ := bind_ok h
    obtain ⟨fs, hfs, h⟩ := bind_ok h
    obtain ⟨wh', hwh, h⟩ := bind_ok h
    obtain ⟨g, hg, h⟩ := bind_ok h
    obtain ⟨hv', hhv, h⟩ := bind_ok h
    obtain ⟨wss, hwss, h⟩ := bind_ok h
    obtain ⟨wie, hwie, h⟩ := bind_ok h
    obtain ⟨ce, hce', h⟩ := bind_ok h
    replace hce := hce _ hce'
    have hj' := nb_joinStmts ho (by decide) (nb_exprs items _ _ ho h1 hss) hj
    have hf := nb_relOpt fr _ _ ho h2 hfs
    have hw := nb_exprOpt wh _ _ ho h3 hwh
    have hg' := nb_groupByOpt gb _ _ ho h4 hg
    have hh := nb_exprOpt hv _ _ ho h5 hhv
    have hwi := nb_listEntry ho (by decide) (by decide) (nb_namedWins wins _ _ ho h6 hwss) hwie
    refine nb_print ho ?_ h
    refine mem_append_nb (mem_append_nb (mem_append_nb (mem_append_nb (mem_append_nb (mem_append_nb
      (mem_append_nb hwe (single_nb (by decide) (nb_ite (nb_app (by decide) hj') hj'))) (optEntry_nb (by decide) ?_))
      (optEntry_nb (by decide) hw)) (optEntry_nb (by decide) ?_)) (optEntry_nb (by decide) hh)) hwi) hce
    · refine optMap_nb ?_ hf
      intro s hs
      unfold fromText
      split
      · exact nb_ite (nb_pad (nb_parenS hs) _) hs
      · exact hs
    · exact optMap_nb (fun s hs => nb_app (by decide) hs) hg'
  | .set k l r d, o, we, ce, s, ho, ha, hwe, hce, h => by
    rw [QBody_sql_set] at h
    obtain ⟨a, ha', h⟩ := bind_ok h
    obtain ⟨b, hb', h⟩ := bind_ok h
    cases h
    have h1 := nb_query l _ _ ho ha.1 ha'
    have h2 := nb_query r _ _ ho ha.2 hb'
    have hsp := nb_spacing ho
    exact nb_app (nb_app (nb_app (nb_app (nb_app (nb_app (nb_relStr ho h1) hsp) (by cases k <;> decide)) (by decide))
      (by cases d <;> decide)) hsp) (nb_relStr ho h2)
  | .table t, o, we, ce, s, ho, ha, hwe, hce, h => by
    rw [QBody_sql_table] at h
    obtain ⟨we, hwe', h⟩ := bind_ok h
    replace hwe := hwe _ hwe'
    obtain ⟨ce, hce', h⟩ := bind_ok h
    replace hce := hce _ hce'
    exact nb_print ho (mem_append_nb (mem_append_nb hwe (single_nb (by decide) (nb_table ha))) hce) h
  | .values es, o, we, ce, s, ho, ha, hwe, hce, h => by
    rw [QBody_sql_values] at h
    obtain ⟨we, hwe', h⟩ := bind_ok h
    replace hwe := hwe _ hwe'
    obtain ⟨ss, hss, h⟩ := bind_ok h
    obtain ⟨j, hj, h⟩ := bind_ok h
    obtain ⟨ce, hce', h⟩ := bind_ok h
    replace hce := hce _ hce'
    have hj' := nb_joinStmts ho (by decide) (nb_exprs es _ _ ho ha hss) hj
    exact nb_print ho (mem_append_nb (mem_append_nb hwe (single_nb (by decide) hj')) hce) h
theorem nb_namedWins : ∀ (es : List (Str × Win)) (o : Opts) (ss : List Str), o.mode = .default →
    namedWinsAll nb es → Win.namedSqls o es = .ok ss → ∀ s ∈ ss, nb s
  | [], o, ss, ho, ha, h => by cases h; intro s hs; cases hs
  | (n, w) :: es, o, ss, ho, ha, h => by
    rw [Win_namedSqls_cons] at h
    obtain ⟨x, hx, h⟩ := bind_ok h
    obtain ⟨y, hy, h⟩ := bind_ok h
    cases h
    intro s hs
    have h1 := nb_win w _ _ ho ha.2.1 hx
    have h2 := nb_namedWins es _ _ ho ha.2.2 hy
    rcases List.mem_cons.mp hs with rfl | hs
    · exact nb_app (nb_app ha.1 (by decide)) (nb_parenS h1)
    · exact h2 s hs
theorem nb_named : ∀ (e : Named) (o : Opts) (s : Str), o.mode = .default →
    namedAll nb e → (e.sql o = .ok s ∨ e.namedSql o = .ok s) → nb s
  | .mk r a cols, o, s, ho, ha, h => by
    obtain ⟨h1, h2, h3⟩ := ha
    rcases h with h | h
    · rw [Named_sql_mk] at h
      obtain ⟨x, hx, h⟩ := bind_ok h
      obtain ⟨y, hy, h⟩ := bind_ok h
      cases h
      exact nb_app (nb_app (nb_app (nb_relStr ho (nb_rel r _ _ ho h2 hx)) (by decide)) (nb_quoteIdent h1))
        (nb_cols ho (by decide) (by decide) h3 hy)
    · rw [Named_namedSql_mk] at h
      obtain ⟨x, hx, h⟩ := bind_ok h
      obtain ⟨y, hy, h⟩ := bind_ok h
      cases h
      exact nb_app (nb_app (nb_app (nb_quoteIdent h1) (nb_cols ho (by decide) (by decide) h3 hx)) (by decide))
        (nb_relStr ho (nb_rel r _ _ ho h2 hy))
theorem nb_nameds : ∀ (es : List Named) (o : Opts) (ss : List Str), o.mode = .default →
    namedsAll nb es → Named.namedSqls o es = .ok ss → ∀ s ∈ ss, nb s
  | [], o, ss, ho, ha, h => by cases h; intro s hs; cases hs
  | e :: es, o, ss, ho, ha, h => by
    rw [Named_namedSqls_cons] at h
    obtain ⟨x, hx, h⟩ := bind_ok h
    obtain ⟨y, hy, h⟩ := bind_ok h
    cases h
    intro s hs
    have h1 := nb_named e _ _ ho ha.1 (.inr hx)
    have h2 := nb_nameds es _ _ ho ha.2 hy
    rcases List.mem_cons.mp hs with rfl | hs
    · exact h1
    · exact h2 s hs
theorem nb_relOpt : ∀ (e : Option Rel) (o : Opts) (s : Option Str), o.mode = .default →
    relOptAll nb e → Rel.sqlOpt o e = .ok s → optAll nb s
  | none, o, s, ho, ha, h => by cases h; trivial
  | some e, o, s, ho, ha, h => by
    rw [Rel_sqlOpt_some] at h
    obtain ⟨x, hx, h⟩ := bind_ok h
    cases h
    exact nb_rel e _ _ ho ha hx
theorem nb_rel : ∀ (r : Rel) (o : Opts) (s : Str), o.mode = .default →
    relAll nb r → r.sql o = .ok s → nb s
  | .table t, o, s, ho, ha, h => by cases h; exact nb_table ha
  | .query q, o, s, ho, ha, h => nb_query q _ _ ho ha h
  | .aliased n, o, s, ho, ha, h => nb_named n _ _ ho ha (.inl h)
  | .join l r t nat cr, o, s, ho, ha, h => by
    obtain ⟨h1, h2, h3⟩ := ha
    rw [Rel_sql_join] at h
    obtain ⟨x, hx, h⟩ := bind_ok h
    obtain ⟨y, hy, h⟩ := bind_ok h
    obtain ⟨ce, hce, h⟩ := bind_ok h
    have hx' := nb_rel l _ _ ho h1 hx
    have hy' := nb_rel r _ _ ho h2 hy
    refine nb_print ho (mem_append_nb ?_ (nb_critOpt cr _ _ ho h3 hce)) h
    intro e he
    simp only [List.mem_cons, List.not_mem_nil, or_false] at he
    rcases he with rfl | rfl
    · exact ⟨nb_relStr ho hx', nb_nil⟩
    · exact ⟨nb_app (nb_app (nb_ite (by decide) (by decide)) (by cases t <;> decide)) (by decide), nb_relStr ho hy'⟩
  | .unnest as ord, o, s, ho, ha, h => by
    rw [Rel_sql_unnest] at h
    obtain ⟨x, hx, h⟩ := bind_ok h
    obtain ⟨y, hy, h⟩ := bind_ok h
    cases h
    have hy' := nb_joinStmts ho (by decide) (nb_exprs as _ _ ho ha hx) hy
    apply nb_join (by decide)
    intro t ht
    rcases List.mem_cons.mp ht with rfl | ht
    · exact nb_app (nb_app (by decide) hy') (by decide)
    · cases ord with
      | false => cases ht
      | true =>
        have : ∀ t ∈ (c% " WITH ORDINALITY").map ([·]), nb t := by decide
        exact this t ht
  | .lateral q, o, s, ho, ha, h => by
    rw [Rel_sql_lateral] at h
    obtain ⟨x, hx, h⟩ := bind_ok h
    cases h
    exact nb_app (nb_app (by decide) (nb_query q _ _ ho ha hx)) (by decide)
  | .sample r t p, o, s, ho, ha, h => by
    rw [Rel_sql_sample] at h
    obtain ⟨x, hx, h⟩ := bind_ok h
    obtain ⟨y, hy, h⟩ := bind_ok h
    cases h
    have h1 := nb_rel r _ _ ho ha.1 hx
    have h2 := nb_expr p _ _ _ ho ha.2 hy
    exact nb_app (nb_app (nb_app (nb_app (nb_app (nb_relStr ho h1) (by decide)) (by cases t <;> decide)) (by decide)) h2)
      (by decide)
theorem nb_critOpt : ∀ (c : Option Crit) (o : Opts) (es : Entries), o.mode = .default →
    critOptAll nb c → Crit.entriesOpt o c = .ok es → ∀ e ∈ es, nb e.1 ∧ nb e.2
  | none, o, es, ho, ha, h => by cases h; intro e he; cases he
  | some (.using cols), o, es, ho, ha, h => by
    rw [Crit_entriesOpt_some, Crit_entries_using] at h
    obtain ⟨x, hx, h⟩ := bind_ok h
    cases h
    exact single_nb (by decide) (nb_parenS (nb_names ho ha hx))
  | some (.on e), o, es, ho, ha, h => by
    rw [Crit_entriesOpt_some, Crit_entries_on] at h
    obtain ⟨x, hx, h⟩ := bind_ok h
    cases h
    exact single_nb (by decide) (nb_pad (nb_expr e _ _ _ ho ha hx) _)
end

namespace Props

/-- No line-break character (as of Python's `splitlines`). -/
def OneLine (s : Str) : Prop := ∀ c ∈ s, isBreak c = false

/-- **C18.** If no name and no literal text of an expression contains a line break, then its text in
default mode contains none. -/
theorem C18_expression (e : Expr) (n : Nat) (s : Str) (h : exprAll OneLine e)
    (hs : e.sql ⟨.default, n⟩ = .ok s) : OneLine s := by
  have : (OneLine : Str → Prop) = nb := by
    funext s; exact propext ⟨nb_of_mem, nb_mem⟩
  rw [this] at h ⊢
  exact nb_expr e false _ s rfl h hs

/-- **C18.** The same for queries. -/
theorem C18_query (q : Query) (n : Nat) (s : Str) (h : queryAll OneLine q)
    (hs : q.sql ⟨.default, n⟩ = .ok s) : OneLine s := by
  have : (OneLine : Str → Prop) = nb := by
    funext s; exact propext ⟨nb_of_mem, nb_mem⟩
  rw [this] at h ⊢
  exact nb_query q _ s rfl h hs

/-- **C18.** The same for relations. -/
theorem C18_relation (r : Rel) (n : Nat) (s : Str) (h : relAll OneLine r)
    (hs : r.sql ⟨.default, n⟩ = .ok s) : OneLine s := by
  have : (OneLine : Str → Prop) = nb := by
    funext s; exact propext ⟨nb_of_mem, nb_mem⟩
  rw [this] at h ⊢
  exact nb_rel r _ s rfl h hs

-- a query whose pretty text has four lines
example : queryAll OneLine (.mk (.select [.case none [(.isNull (.field (c% "a") none .unknown), .field (c% "b") none .unknown)] none]
      (some (.table { name := c% "t" })) none none none false []) none (some 5) [] []) := by
  refine ⟨⟨⟨⟨trivial, ⟨⟨?_, trivial⟩, ⟨?_, trivial⟩, trivial⟩, trivial⟩, trivial⟩, ⟨?_, trivial, trivial⟩,
    trivial, trivial, trivial, trivial⟩, trivial, trivial⟩ <;> exact nb_mem (by decide)

end Props
end Treeno
