import Verif.Spec.Printable
import Verif.Lemmas.PrintToks
import Verif.Lemmas.CheckEqs
/-! # What can be printed -/
namespace Treeno
open Spec

theorem ok_bind {α β : Type} {x : Except Err α} {f : α → Except Err β} (h : ∃ a, x = .ok a) (hf : ∀ a, ∃ b, f a = .ok b) :
    ∃ b, (x >>= f) = .ok b := by
  obtain ⟨a, rfl⟩ := h
  exact hf a

theorem ok_bind' {α β : Type} {x : Except Err α} {f : α → Except Err β} {P : α → Prop} (h : ∃ a, x = .ok a ∧ P a)
    (hf : ∀ a, P a → ∃ b, f a = .ok b) : ∃ b, (x >>= f) = .ok b := by
  obtain ⟨a, rfl, ha⟩ := h
  exact hf a ha

theorem ok_join {o : Opts} (ho : o.spaces < 80) (ss : List Str) (d : Str) : ∃ s, joinStmts ss o d = .ok s := by
  unfold joinStmts joinPrinter
  rw [if_pos ho]
  exact ⟨_, rfl⟩

theorem ok_set {o : Opts} (ho : o.spaces < 80) : ∀ ss : List Str, ∃ s, setText o ss = .ok s
  | [_] => ⟨_, rfl⟩
  | [] => ok_bind (ok_join ho _ _) fun _ => ⟨_, rfl⟩
  | _ :: _ :: _ => ok_bind (ok_join ho _ _) fun _ => ⟨_, rfl⟩

theorem ok_cols {o : Opts} (ho : o.spaces < 80) (a b : Str) (cs : List Str) : ∃ s, colsText o a b cs = .ok s := by
  unfold colsText
  cases cs.isEmpty with
  | true => exact ⟨_, rfl⟩
  | false => exact ok_bind (ok_join ho _ _) fun _ => ⟨_, rfl⟩

theorem ok_orderBy {o : Opts} (ho : o.spaces < 80) {os : List Str} (h : os ≠ []) : ∃ s, orderByText o os = .ok s := by
  unfold orderByText
  cases os with
  | nil => exact absurd rfl h
  | cons a r => exact ok_bind (ok_join ho _ _) fun _ => ⟨_, rfl⟩

theorem ok_aggArgs {o : Opts} (ho : o.spaces < 80) (a : Str) (os : List Str) : ∃ s, aggArgs o a os = .ok s := by
  unfold aggArgs
  cases os with
  | nil => exact ⟨_, rfl⟩
  | cons x r => exact ok_bind (ok_orderBy ho (List.cons_ne_nil _ _)) fun _ => ok_join ho _ _

theorem ok_listagg {o : Opts} (ho : o.spaces < 80) (s sep : Str) (ov) : ∃ t, listaggArgs o s sep ov = .ok t := by
  refine ok_bind ?_ fun t => ?_
  · unfold sepArgs
    split
    · exact ok_join ho _ _
    · exact ⟨_, rfl⟩
  · cases ov with
    | none => exact ⟨_, rfl⟩
    | some f => exact ok_join ho _ _

theorem ok_pemdas {c v b} {s d : Except Err Str} (hs : ∃ x, s = .ok x) (hd : ∃ x, d = .ok x) : ∃ x, pemdas c v b s d = .ok x := by
  obtain ⟨s, rfl⟩ := hs
  obtain ⟨d, rfl⟩ := hd
  unfold pemdas
  split
  · split
    · split <;> exact ⟨_, rfl⟩
    · split <;> exact ⟨_, rfl⟩
  · exact ⟨_, rfl⟩

theorem map_ok {α β : Type} {f : α → β} {x : Except Err α} {b : β} (h : f <$> x = .ok b) : ∃ a, x = .ok a := by
  cases x with
  | ok a => exact ⟨a, rfl⟩
  | error e => cases h

theorem pemdas_any {c v b t} {s d : Except Err Str} {P : Prop} (h : pemdas c v b s d = .ok t) (hs : ∀ {x}, s = .ok x → P)
    (hd : ∀ {x}, d = .ok x → P) : P := by
  unfold pemdas at h
  split at h
  · split at h
    · split at h
      · exact hs h
      · obtain ⟨a, ha⟩ := map_ok h
        exact hd ha
    · split at h
      · obtain ⟨a, ha⟩ := map_ok h
        exact hd ha
      · exact hs h
  · exact hs h

/-! ## Entries -/

theorem print_iff {river es o} : (∃ s, printEntries river es o = .ok s) ↔ (es.map Prod.fst).Nodup := by
  unfold printEntries
  rw [addEntries_eq es [] (by simp), List.nil_append]
  by_cases h : (es.map Prod.fst).Nodup
  · rw [if_pos h]
    exact ⟨fun _ => h, fun _ => ⟨_, rfl⟩⟩
  · rw [if_neg h]
    refine ⟨?_, fun h' => absurd h' h⟩
    rintro ⟨_, h'⟩
    cases h'

theorem ok_print {river es o} {L : List Str} (h : (es.map Prod.fst).Sublist L ∧ L.Nodup) : ∃ s, printEntries river es o = .ok s :=
  print_iff.2 (h.2.sublist h.1)

/-- The keys of `es` are among `L`, in that order. -/
abbrev KeysIn (L : List Str) (es : Entries) : Prop := (es.map Prod.fst).Sublist L

theorem KeysIn.app {L M es fs} (h : KeysIn L es) (h' : KeysIn M fs) : KeysIn (L ++ M) (es ++ fs) := by
  unfold KeysIn
  rw [List.map_append]
  exact h.append h'
theorem KeysIn.one (k v : Str) : KeysIn [k] [(k, v)] := List.Sublist.refl _
theorem keys_opt (k : Str) : ∀ v, KeysIn [k] (optEntry k v)
  | none => List.nil_sublist _
  | some _ => List.Sublist.refl _
theorem keys_rows (off lim : Option Int) : KeysIn [c% "OFFSET", c% "LIMIT"] (rowsEntries off lim) := by
  refine KeysIn.app (L := [c% "OFFSET"]) (M := [c% "LIMIT"]) ?_ ?_
  · cases off with
    | none => exact List.nil_sublist _
    | some n => 
      dsimp only
      split
      · exact List.Sublist.refl _
      · exact List.nil_sublist _
  · cases lim with
    | none => exact List.nil_sublist _
    | some n => 
      dsimp only
      split
      · exact List.Sublist.refl _
      · exact List.nil_sublist _

theorem listEntry_keys {o k p ss es} (h : listEntry o k p ss = .ok es) : es.map Prod.fst = if ss.isEmpty then [] else [k] := by
  unfold listEntry at h
  cases hs : ss.isEmpty with
  | true =>
    rw [hs, if_pos rfl] at h
    cases h
    rfl
  | false =>
    rw [hs, if_neg (by decide)] at h
    obtain ⟨j, _, h⟩ := bind_ok h
    cases h
    rfl

theorem ok_list {o : Opts} (ho : o.spaces < 80) (k p : Str) (ss : List Str) : ∃ es, listEntry o k p ss = .ok es ∧ KeysIn [k] es := by
  have : ∃ es, listEntry o k p ss = .ok es := by
    unfold listEntry
    cases ss.isEmpty with
    | true => exact ⟨_, rfl⟩
    | false => exact ok_bind (ok_join ho _ _) fun _ => ⟨_, rfl⟩
  obtain ⟨es, h⟩ := this
  refine ⟨es, h, ?_⟩
  unfold KeysIn
  rw [listEntry_keys h]
  cases ss.isEmpty
  · exact List.Sublist.refl _
  · exact List.nil_sublist _

theorem agg_keys (fs : Option Str) (ign : Bool) (ws : Option Str) :
    KeysIn [c% "FILTER", c% "IGNORE", c% "OVER"] (optEntry (c% "FILTER") (fs.map fun s => c% "(WHERE " ++ s ++ c% ")") ++
      (if ign then [(c% "IGNORE", c% "NULLS")] else []) ++ optEntry (c% "OVER") (ws.map parenS)) ∧
    [c% "FILTER", c% "IGNORE", c% "OVER"].Nodup := by
  refine ⟨?_, by decide⟩
  refine KeysIn.app (L := [c% "FILTER", c% "IGNORE"]) (KeysIn.app (L := [c% "FILTER"]) (keys_opt _ _) ?_) (keys_opt _ _)
  cases ign
  · exact List.nil_sublist _
  · exact List.Sublist.refl _

abbrev HeadOk (es : Entries) : Prop := KeysIn [c% "WITH"] es
abbrev TailOk (es : Entries) : Prop := KeysIn [c% "ORDER", c% "OFFSET", c% "LIMIT"] es

theorem ok_select {o : Opts} {we ce wie : Entries} {s1 : Str} {a b c d : Option Str} (h1 : HeadOk we) (h2 : TailOk ce)
    (h3 : KeysIn [c% "WINDOW"] wie) :
    ∃ s, printEntries true (we ++ [(c% "SELECT", s1)] ++ optEntry (c% "FROM") a ++ optEntry (c% "WHERE") b ++
      optEntry (c% "GROUP") c ++ optEntry (c% "HAVING") d ++ wie ++ ce) o = .ok s :=
  ok_print ⟨((((((h1.app (KeysIn.one _ _)).app (keys_opt _ _)).app (keys_opt _ _)).app (keys_opt _ _)).app (keys_opt _ _)).app h3).app h2,
    by decide⟩

theorem ok_simple {o : Opts} {we ce : Entries} {k s1 : Str} (h1 : HeadOk we) (h2 : TailOk ce) (hk : k = c% "TABLE" ∨ k = c% "VALUES") :
    ∃ s, printEntries true (we ++ [(k, s1)] ++ ce) o = .ok s :=
  ok_print ⟨(h1.app (KeysIn.one _ _)).app h2, by rcases hk with rfl | rfl <;> decide⟩

/-! ## Windows -/

theorem sqls_nil {o : Opts} : ∀ {es : List Expr} {ss}, Expr.sqls o es = .ok ss → ss.isEmpty = es.isEmpty
  | [], _, h => by cases h; rfl
  | _ :: _, _, h => by
    rw [Expr_sqls_cons] at h
    obtain ⟨_, _, h⟩ := bind_ok h
    obtain ⟨_, _, h⟩ := bind_ok h
    cases h
    rfl
theorem ords_nil {o : Opts} : ∀ {es : List Ord} {ss}, Ord.sqls o es = .ok ss → ss.isEmpty = es.isEmpty
  | [], _, h => by cases h; rfl
  | _ :: _, _, h => by
    rw [Ord_sqls_cons] at h
    obtain ⟨_, _, h⟩ := bind_ok h
    obtain ⟨_, _, h⟩ := bind_ok h
    cases h
    rfl

/-- The keys of the clauses of a window. -/
def winKeys (f : FrameType) (a b : Bool) : List Str := (if a then [] else [c% "PARTITION"]) ++ (if b then [] else [c% "ORDER"]) ++ [f.text]

theorem winKeys_nodup (f a b) : (winKeys f a b).Nodup := by cases f <;> cases a <;> cases b <;> decide

theorem win_keys {p : Option Str} {ob : List Ord} {ps : List Expr} {f : FrameType} {pae obe : Entries} {v : Str}
    (h1 : pae.map Prod.fst = if ps.isEmpty then [] else [c% "PARTITION"])
    (h2 : obe.map Prod.fst = if ob.isEmpty then [] else [c% "ORDER"]) :
    ((parentEntry p ++ pae ++ obe ++ [(f.text, v)]).map Prod.fst).Nodup ↔ ParentFree p ob ps f := by
  have e : (parentEntry p ++ pae ++ obe ++ [(f.text, v)]).map Prod.fst = (parentEntry p).map Prod.fst ++ winKeys f ps.isEmpty ob.isEmpty := by
    rw [List.map_append, List.map_append, List.map_append, h1, h2]
    unfold winKeys
    simp only [List.append_assoc, List.map_cons, List.map_nil]
  rw [e]
  have hn := winKeys_nodup f ps.isEmpty ob.isEmpty
  cases p with
  | none => exact ⟨fun _ n hn => (nomatch hn), fun _ => hn⟩
  | some n =>
    cases n with
    | nil => exact ⟨fun _ n hn h => absurd (Option.some.inj hn).symm h, fun _ => hn⟩
    | cons c r =>
      have e : (parentEntry (some (c :: r))).map Prod.fst ++ winKeys f ps.isEmpty ob.isEmpty = (c :: r) :: winKeys f ps.isEmpty ob.isEmpty := rfl
      rw [e, List.nodup_cons]
      have hp : (c :: r) ∉ winKeys f ps.isEmpty ob.isEmpty ↔ (ps ≠ [] → (c :: r) ≠ c% "PARTITION") ∧ (ob ≠ [] → (c :: r) ≠ c% "ORDER") ∧
          (c :: r) ≠ frameWord f := by
        have ef : f.text = frameWord f := by cases f <;> rfl
        rw [← ef]
        unfold winKeys
        generalize c :: r = n
        generalize f.text = k
        cases ps <;> cases ob <;> simp
      exact ⟨fun h n hn _ => by cases hn; exact hp.1 h.1, fun h => ⟨hp.2 (h _ rfl (List.cons_ne_nil _ _)), hn⟩⟩

/-! ## The beginning of a relation -/

/-- How the text of a relation begins. -/
def RelHd (s : Str) : Prop := (∃ r, s = '"' :: r) ∨ (∃ r, s = '(' :: r) ∨ (∃ r, s = 'U' :: 'N' :: r) ∨ ∃ r, s = 'L' :: 'A' :: r

theorem RelHd.app {s : Str} (h : RelHd s) (t : Str) : RelHd (s ++ t) := by
  rcases h with ⟨r, rfl⟩ | ⟨r, rfl⟩ | ⟨r, rfl⟩ | ⟨r, rfl⟩
  · exact .inl ⟨_, rfl⟩
  · exact .inr (.inl ⟨_, rfl⟩)
  · exact .inr (.inr (.inl ⟨_, rfl⟩))
  · exact .inr (.inr (.inr ⟨_, rfl⟩))

theorem hd_paren (s : Str) : RelHd (parenS s) := .inr (.inl ⟨_, rfl⟩)

theorem hd_relStr {o q n s} (h : q = false → RelHd s) : RelHd (relStr o q n s) := by
  unfold relStr
  cases q with
  | true => exact hd_paren _
  | false => exact h rfl

theorem hd_table (t : TableRef) : RelHd t.sql := by
  obtain ⟨n, s, c, _⟩ := t
  cases c <;> cases s <;> exact .inl ⟨_, rfl⟩

theorem join_head (sep a : Str) (r : List Str) : ∃ t, join sep (a :: r) = a ++ t := by
  rw [join_cons]
  split
  · exact ⟨[], rfl⟩
  · exact ⟨_, rfl⟩

mutual
theorem hd_rel : ∀ (r : Rel) (o : Opts) {s}, r.isQuery = false → r.sql o = .ok s → RelHd s
  | .table t, _, _, _, h => by
    rw [Rel_sql_table] at h
    cases h
    exact hd_table t
  | .query _, _, _, hq, _ => nomatch hq
  | .aliased n, o, _, _, h => by
    rw [Rel_sql_aliased] at h
    exact hd_named n o h
  | .join l r t nat cr, o, s, _, h => by
    rw [Rel_sql_join] at h
    obtain ⟨a, ha, h⟩ := bind_ok h
    obtain ⟨b, _, h⟩ := bind_ok h
    obtain ⟨ce, _, h⟩ := bind_ok h
    have hl : RelHd (relStr o l.isQuery true a) := hd_relStr fun hq => hd_rel l o hq ha
    rw [printEntries_eq h]
    unfold stmtString
    rw [if_neg (by simp), List.cons_append, List.map_cons]
    obtain ⟨x, hx⟩ := join_head (lineSep o.mode) (stmtLine o.mode false
      (maxKeyLen ((relStr o l.isQuery true a, ([] : Str)) ::
        ([((if nat then c% "NATURAL " else []) ++ t.text ++ c% " JOIN", relStr o r.isQuery true b)] ++ ce))) (relStr o l.isQuery true a, []))
      (([((if nat then c% "NATURAL " else []) ++ t.text ++ c% " JOIN", relStr o r.isQuery true b)] ++ ce).map (stmtLine o.mode false
        (maxKeyLen ((relStr o l.isQuery true a, ([] : Str)) ::
          ([((if nat then c% "NATURAL " else []) ++ t.text ++ c% " JOIN", relStr o r.isQuery true b)] ++ ce)))))
    rw [hx]
    refine RelHd.app ?_ _
    unfold stmtLine
    rw [if_neg (by simp)]
    exact hl
  | .unnest as ord, o, _, _, h => by
    rw [Rel_sql_unnest] at h
    obtain ⟨_, _, h⟩ := bind_ok h
    obtain ⟨j, _, h⟩ := bind_ok h
    cases h
    obtain ⟨t, ht⟩ := join_head (c% " ") (c% "UNNEST(" ++ j ++ c% ")") (if ord then (c% " WITH ORDINALITY").map ([·]) else [])
    rw [ht]
    exact .inr (.inr (.inl ⟨_, rfl⟩))
  | .lateral q, o, _, _, h => by
    rw [Rel_sql_lateral] at h
    obtain ⟨_, _, h⟩ := bind_ok h
    cases h
    exact .inr (.inr (.inr ⟨_, rfl⟩))
  | .sample r t p, o, _, _, h => by
    rw [Rel_sql_sample] at h
    obtain ⟨a, ha, h⟩ := bind_ok h
    obtain ⟨_, _, h⟩ := bind_ok h
    cases h
    simp only [List.append_assoc]
    refine RelHd.app (hd_relStr fun hq => hd_rel r o ?_ ha) _
    exact (Bool.or_eq_false_iff.1 hq).1
theorem hd_named : ∀ (n : Named) (o : Opts) {s}, n.sql o = .ok s → RelHd s
  | .mk r a cols, o, _, h => by
    rw [Named_sql_mk] at h
    obtain ⟨x, hx, h⟩ := bind_ok h
    obtain ⟨_, _, h⟩ := bind_ok h
    cases h
    simp only [List.append_assoc]
    exact RelHd.app (hd_relStr fun hq => hd_rel r o hq hx) _
end

theorem crit_keys {o : Opts} : ∀ {cr : Option Crit} {ce}, Crit.entriesOpt o cr = .ok ce →
    ce.map Prod.fst = [] ∨ ce.map Prod.fst = [c% "ON"] ∨ ce.map Prod.fst = [c% "USING"]
  | none, _, h => by cases h; exact .inl rfl
  | some (.using _), _, h => by
    rw [Crit_entriesOpt_some, Crit_entries_using] at h
    obtain ⟨_, _, h⟩ := bind_ok h
    cases h
    exact .inr (.inr rfl)
  | some (.on _), _, h => by
    rw [Crit_entriesOpt_some, Crit_entries_on] at h
    obtain ⟨_, _, h⟩ := bind_ok h
    cases h
    exact .inr (.inl rfl)

theorem hd_ne {s k : Str} (h : RelHd s) (hk : (match k with
    | '"' :: _ => false
    | '(' :: _ => false
    | 'U' :: 'N' :: _ => false
    | 'L' :: 'A' :: _ => false
    | _ => true) = true) : s ≠ k := by
  rintro rfl
  rcases h with ⟨r, rfl⟩ | ⟨r, rfl⟩ | ⟨r, rfl⟩ | ⟨r, rfl⟩ <;> exact Bool.noConfusion hk

theorem ok_joinRel {o : Opts} {a b : Str} {t : JoinType} {nat : Bool} {ce : Entries} (h : RelHd a)
    (hc : ce.map Prod.fst = [] ∨ ce.map Prod.fst = [c% "ON"] ∨ ce.map Prod.fst = [c% "USING"]) :
    ∃ s, printEntries false ([(a, []), ((if nat then c% "NATURAL " else []) ++ t.text ++ c% " JOIN", b)] ++ ce) o = .ok s := by
  refine print_iff.2 ?_
  rw [List.map_append]
  have h1 : a ≠ (if nat then c% "NATURAL " else []) ++ t.text ++ c% " JOIN" := hd_ne h (by cases nat <;> cases t <;> rfl)
  have h2 : a ≠ c% "ON" := hd_ne h rfl
  have h3 : a ≠ c% "USING" := hd_ne h rfl
  have h4 : (if nat then c% "NATURAL " else []) ++ t.text ++ c% " JOIN" ≠ c% "ON" := by cases nat <;> cases t <;> decide
  have h5 : (if nat then c% "NATURAL " else []) ++ t.text ++ c% " JOIN" ≠ c% "USING" := by cases nat <;> cases t <;> decide
  generalize (if nat then c% "NATURAL " else []) ++ t.text ++ c% " JOIN" = k at *
  rcases hc with e | e | e <;> rw [e] <;> simp [h1, h2, h3, h4, h5]

/-! ## Accepted trees without clashes are printed, and only those -/

set_option maxHeartbeats 1600000 in
mutual
theorem sh_Expr : ∀ x : Expr, (∃ t, Expr.check x = .ok t) → Expr.Printable x → ∀ (neg : Bool) (o : Opts), o.spaces < 80 → ∃ s, Expr.sqlN neg o x = .ok s
  | .lit v t, _, _, neg, o, _ => by
    rw [Expr_sqlN_lit]
    exact ⟨_, rfl⟩
  | .field n tn t, _, _, neg, o, _ => by
    rw [Expr_sqlN_field]
    exact ⟨_, rfl⟩
  | .fieldOf n b t, ⟨_, hc⟩, h, neg, o, ho => by
    rw [Expr_check_fieldOf] at hc
    obtain ⟨_, c_b, hc⟩ := bind_ok hc
    rw [Expr_sqlN_fieldOf]
    exact ok_bind (sh_Expr b ⟨_, c_b⟩ (h) false o ho) fun _ => ⟨_, rfl⟩
  | .alias v n, ⟨_, hc⟩, h, neg, o, ho => by
    rw [Expr_check_alias] at hc
    obtain ⟨_, c_v, hc⟩ := bind_ok hc
    rw [Expr_sqlN_alias]
    exact ok_bind (sh_Expr v ⟨_, c_v⟩ (h) false o ho) fun _ => ⟨_, rfl⟩
  | .star tn t, _, _, neg, o, _ => by
    rw [Expr_sqlN_star]
    exact ⟨_, rfl⟩
  | .starOf b t, ⟨_, hc⟩, h, neg, o, ho => by
    rw [Expr_check_starOf] at hc
    obtain ⟨_, c_b, hc⟩ := bind_ok hc
    rw [Expr_sqlN_starOf]
    exact ok_bind (sh_Expr b ⟨_, c_b⟩ (h) false o ho) fun _ => ⟨_, rfl⟩
  | .aliasedStar s as, ⟨_, hc⟩, h, neg, o, ho => by
    rw [Expr_check_aliasedStar] at hc
    rw [Expr_sqlN_aliasedStar]
    exact ok_bind (ok_join ho _ _) fun _ => ok_bind (sh_Expr s ⟨_, hc⟩ (h) false o ho) fun _ => ⟨_, rfl⟩
  | .var n, _, _, neg, o, _ => by
    rw [Expr_sqlN_var]
    exact ⟨_, rfl⟩
  | .lam ins b, ⟨_, hc⟩, h, neg, o, ho => by
    rw [Expr_check_lam] at hc
    obtain ⟨_, c_b, hc⟩ := bind_ok hc
    rw [Expr_sqlN_lam]
    exact ok_bind (ok_join ho _ _) fun _ => ok_bind (sh_Expr b ⟨_, c_b⟩ (h) false o ho) fun _ => ⟨_, rfl⟩
  | .un op v, ⟨_, hc⟩, h, neg, o, ho => by
    rw [Expr_check_un] at hc
    rw [Expr_sqlN_un]
    exact ok_bind (ok_pemdas (sh_Expr v ⟨_, hc⟩ (h) false o ho) (sh_Expr v ⟨_, hc⟩ (h) false dfltOpts (by decide))) fun _ => ⟨_, rfl⟩
  | .bin op l r, ⟨_, hc⟩, h, neg, o, ho => by
    rw [Expr_check_bin] at hc
    obtain ⟨_, c_l, hc⟩ := bind_ok hc
    obtain ⟨_, c_r, hc⟩ := bind_ok hc
    rw [Expr_sqlN_bin]
    dsimp only
    have ho' : (if neg = true ∧ op = .ne then dfltOpts else o).spaces < 80 := by
      split
      · decide
      · exact ho
    exact ok_bind (ok_pemdas (sh_Expr l ⟨_, c_l⟩ h.1 false _ ho') (sh_Expr l ⟨_, c_l⟩ h.1 false dfltOpts (by decide))) fun _ =>
      ok_bind (ok_pemdas (sh_Expr r ⟨_, c_r⟩ h.2 false _ ho') (sh_Expr r ⟨_, c_r⟩ h.2 false dfltOpts (by decide))) fun _ => ⟨_, rfl⟩
  | .not v, ⟨_, hc⟩, h, neg, o, ho => by
    rw [Expr_check_not] at hc
    obtain ⟨_, c_v, hc⟩ := bind_ok hc
    rw [Expr_sqlN_not]
    split
    · exact sh_Expr v ⟨_, c_v⟩ h true o ho
    · exact ok_bind (ok_pemdas (sh_Expr v ⟨_, c_v⟩ h false o ho) (sh_Expr v ⟨_, c_v⟩ h false dfltOpts (by decide))) fun _ => ⟨_, rfl⟩
  | .isNull v, ⟨_, hc⟩, h, neg, o, ho => by
    rw [Expr_check_isNull] at hc
    obtain ⟨_, c_v, hc⟩ := bind_ok hc
    rw [Expr_sqlN_isNull]
    exact ok_bind (ok_pemdas (sh_Expr v ⟨_, c_v⟩ (h) false o ho) (sh_Expr v ⟨_, c_v⟩ (h) false dfltOpts (by decide))) fun _ => ⟨_, rfl⟩
  | .between v l u, ⟨_, hc⟩, h, neg, o, ho => by
    rw [Expr_check_between] at hc
    obtain ⟨_, c_v, hc⟩ := bind_ok hc
    obtain ⟨_, c_l, hc⟩ := bind_ok hc
    obtain ⟨_, c_u, hc⟩ := bind_ok hc
    rw [Expr_sqlN_between]
    exact ok_bind (ok_pemdas (sh_Expr v ⟨_, c_v⟩ (h.1) false o ho) (sh_Expr v ⟨_, c_v⟩ (h.1) false dfltOpts (by decide))) fun _ => ok_bind (ok_pemdas (sh_Expr l ⟨_, c_l⟩ (h.2.1) false o ho) (sh_Expr l ⟨_, c_l⟩ (h.2.1) false dfltOpts (by decide))) fun _ => ok_bind (ok_pemdas (sh_Expr u ⟨_, c_u⟩ (h.2.2) false o ho) (sh_Expr u ⟨_, c_u⟩ (h.2.2) false dfltOpts (by decide))) fun _ => ⟨_, rfl⟩
  | .array vs, ⟨_, hc⟩, h, neg, o, ho => by
    rw [Expr_check_array] at hc
    obtain ⟨_, c_vs, hc⟩ := bind_ok hc
    rw [Expr_sqlN_array]
    exact ok_bind (sh_Exprs vs ⟨_, c_vs⟩ (h) o ho) fun _ => ok_bind (ok_join ho _ _) fun _ => ⟨_, rfl⟩
  | .inQuery v q, ⟨_, hc⟩, h, neg, o, ho => by
    rw [Expr_check_inQuery] at hc
    obtain ⟨_, c_v, hc⟩ := bind_ok hc
    obtain ⟨_, c_q, hc⟩ := bind_ok hc
    rw [Expr_sqlN_inQuery]
    exact ok_bind (ok_pemdas (sh_Expr v ⟨_, c_v⟩ (h.1) false o ho) (sh_Expr v ⟨_, c_v⟩ (h.1) false dfltOpts (by decide))) fun _ => ok_bind (sh_Query q ⟨_, c_q⟩ (h.2) o ho) fun _ => ⟨_, rfl⟩
  | .inList v es, ⟨_, hc⟩, h, neg, o, ho => by
    rw [Expr_check_inList] at hc
    obtain ⟨_, c_v, hc⟩ := bind_ok hc
    obtain ⟨_, c_es, hc⟩ := bind_ok hc
    rw [Expr_sqlN_inList]
    exact ok_bind (sh_Exprs es ⟨_, c_es⟩ (h.2) o ho) fun _ => ok_bind (ok_join ho _ _) fun _ => ok_bind (ok_pemdas (sh_Expr v ⟨_, c_v⟩ (h.1) false o ho) (sh_Expr v ⟨_, c_v⟩ (h.1) false dfltOpts (by decide))) fun _ => ⟨_, rfl⟩
  | .like v p e, ⟨_, hc⟩, h, neg, o, ho => by
    rw [Expr_check_like] at hc
    obtain ⟨_, c_v, hc⟩ := bind_ok hc
    obtain ⟨_, c_p, hc⟩ := bind_ok hc
    obtain ⟨_, c_e, hc⟩ := bind_ok hc
    rw [Expr_sqlN_like]
    exact ok_bind (ok_pemdas (sh_Expr v ⟨_, c_v⟩ (h.1) false o ho) (sh_Expr v ⟨_, c_v⟩ (h.1) false dfltOpts (by decide))) fun _ => ok_bind (ok_pemdas (sh_Expr p ⟨_, c_p⟩ (h.2.1) false o ho) (sh_Expr p ⟨_, c_p⟩ (h.2.1) false dfltOpts (by decide))) fun _ => ok_bind (sh_ExprOpt e ⟨_, c_e⟩ (h.2.2) o ho) fun _ => ⟨_, rfl⟩
  | .typeCtor v t, _, _, neg, o, _ => by
    rw [Expr_sqlN_typeCtor]
    exact ⟨_, rfl⟩
  | .row vs, ⟨_, hc⟩, h, neg, o, ho => by
    rw [Expr_check_row] at hc
    obtain ⟨_, c_vs, hc⟩ := bind_ok hc
    rw [Expr_sqlN_row]
    exact ok_bind (sh_Exprs vs ⟨_, c_vs⟩ (h) o ho) fun _ => ok_bind (ok_join ho _ _) fun _ => ⟨_, rfl⟩
  | .interval v f t, _, _, neg, o, _ => by
    rw [Expr_sqlN_interval]
    exact ⟨_, rfl⟩
  | .cast tr e t, ⟨_, hc⟩, h, neg, o, ho => by
    rw [Expr_check_cast] at hc
    obtain ⟨_, c_e, hc⟩ := bind_ok hc
    rw [Expr_sqlN_cast]
    exact ok_bind (sh_Expr e ⟨_, c_e⟩ (h) false o ho) fun _ => ⟨_, rfl⟩
  | .subscript v i, ⟨_, hc⟩, h, neg, o, ho => by
    rw [Expr_check_subscript] at hc
    obtain ⟨_, c_v, hc⟩ := bind_ok hc
    obtain ⟨_, c_i, hc⟩ := bind_ok hc
    rw [Expr_sqlN_subscript]
    exact ok_bind (sh_Expr v ⟨_, c_v⟩ (h.1) false o ho) fun _ => ok_bind (sh_Expr i ⟨_, c_i⟩ (h.2) false o ho) fun _ => ⟨_, rfl⟩
  | .case v bs e, ⟨_, hc⟩, h, neg, o, ho => by
    rw [Expr_check_case] at hc
    obtain ⟨_, c_v, hc⟩ := bind_ok hc
    obtain ⟨_, c_bs, hc⟩ := bind_ok hc
    obtain ⟨_, c_e, hc⟩ := bind_ok hc
    rw [Expr_sqlN_case]
    exact ok_bind (sh_Whens bs ⟨_, c_bs⟩ (h.2.1) o ho) fun _ => ok_bind (sh_ExprOpt e ⟨_, c_e⟩ (h.2.2) o ho) fun _ => ok_bind (sh_ExprOpt v ⟨_, c_v⟩ (h.1) o ho) fun _ => ⟨_, rfl⟩
  | .func f as, ⟨_, hc⟩, h, neg, o, ho => by
    rw [Expr_check_func] at hc
    obtain ⟨_, c_as, hc⟩ := bind_ok hc
    rw [Expr_sqlN_func]
    exact ok_bind (sh_Exprs as ⟨_, c_as⟩ (h) o ho) fun _ => ok_bind (ok_join ho _ _) fun _ => ⟨_, rfl⟩
  | .agg f as ob fl w ign, ⟨_, hc⟩, h, neg, o, ho => by
    rw [Expr_check_agg] at hc
    obtain ⟨_, c_as, hc⟩ := bind_ok hc
    obtain ⟨_, c_ob, hc⟩ := bind_ok hc
    obtain ⟨_, c_fl, hc⟩ := bind_ok hc
    obtain ⟨_, c_w, hc⟩ := bind_ok hc
    rw [Expr_sqlN_agg]
    exact ok_bind (sh_Exprs as ⟨_, c_as⟩ (h.1) o ho) fun _ => ok_bind (ok_join ho _ _) fun _ => ok_bind (sh_Ords ob ⟨_, c_ob⟩ (h.2.1) o ho) fun _ => ok_bind (ok_aggArgs ho _ _) fun _ => ok_bind (sh_ExprOpt fl ⟨_, c_fl⟩ (h.2.2.1) o ho) fun _ => ok_bind (sh_WinOpt w ⟨_, c_w⟩ (h.2.2.2) o ho) fun _ => ok_bind (ok_print (agg_keys _ _ _)) fun _ => ⟨_, rfl⟩
  | .listagg v sep ov ob, ⟨_, hc⟩, h, neg, o, ho => by
    rw [Expr_check_listagg] at hc
    obtain ⟨_, c_v, hc⟩ := bind_ok hc
    obtain ⟨_, c_ob, hc⟩ := bind_ok hc
    rw [Expr_sqlN_listagg]
    refine ok_bind (sh_Expr v ⟨_, c_v⟩ h.1 false o ho) fun _ => ok_bind (ok_listagg ho _ _ _) fun _ => ?_
    obtain ⟨ss, hss⟩ := sh_Ords ob ⟨_, c_ob⟩ h.2 o ho
    rw [hss]
    have hne : ss ≠ [] := by
      intro e
      have := ords_nil hss
      rw [e] at this
      rw [← this] at hc
      cases hc
    exact ok_bind' (P := (· = ss)) ⟨ss, rfl, rfl⟩ fun _ e => e ▸ ok_bind (ok_orderBy ho hne) fun _ => ⟨_, rfl⟩
  | .curTime f p, _, _, neg, o, _ => by
    rw [Expr_sqlN_curTime]
    exact ⟨_, rfl⟩
  | .session f, _, _, neg, o, _ => by
    rw [Expr_sqlN_session]
    exact ⟨_, rfl⟩
  | .normalize _ _, _, h, _, _, _ => h.elim
  | .query q, ⟨_, hc⟩, h, neg, o, ho => by
    rw [Expr_check_query] at hc
    rw [Expr_sqlN_query]
    exact sh_Query q ⟨_, hc⟩ h o ho
theorem sh_Ord : ∀ x : Ord, (∃ t, Ord.checks [x] = .ok t) → Ord.Printable x → ∀ (o : Opts), o.spaces < 80 → ∃ s, Ord.sql o x = .ok s
  | .mk v d nf, ⟨_, hc⟩, h, o, ho => by
    obtain ⟨_, c_v, hc⟩ := bind_ok (show (Expr.check v >>= fun _ => Ord.checks []) = _ from hc)
    rw [Ord_sql_mk]
    exact ok_bind (sh_Expr v ⟨_, c_v⟩ (h) false o ho) fun _ => ⟨_, rfl⟩
theorem sh_Bound : ∀ x : Bound, (∃ t, Bound.check x = .ok t) → Bound.Printable x → ∀ (o : Opts), o.spaces < 80 → ∃ s, Bound.sql o x = .ok s
  | .bounded t e, ⟨_, hc⟩, h, o, ho => by
    rw [Bound_check_bounded] at hc
    obtain ⟨_, c_e, hc⟩ := bind_ok hc
    rw [Bound_sql_bounded]
    exact ok_bind (sh_Expr e ⟨_, c_e⟩ (h) false o ho) fun _ => ⟨_, rfl⟩
  | .unbounded t, _, _, o, _ => by
    rw [Bound_sql_unbounded]
    exact ⟨_, rfl⟩
  | .current, _, _, o, _ => by
    rw [Bound_sql_current]
    exact ⟨_, rfl⟩
theorem sh_Win : ∀ x : Win, (∃ t, Win.check x = .ok t) → Win.Printable x → ∀ (o : Opts), o.spaces < 80 → ∃ s, Win.sql o x = .ok s
  | .mk p ob ps f st en, ⟨_, hc⟩, h, o, ho => by
    rw [Win_check_mk] at hc
    obtain ⟨_, c_ob, hc⟩ := bind_ok hc
    obtain ⟨_, c_ps, hc⟩ := bind_ok hc
    obtain ⟨_, c_st, hc⟩ := bind_ok hc
    rw [Win_sql_mk]
    obtain ⟨h1, h2, h3, h4, h5⟩ := h
    obtain ⟨x, hx⟩ := sh_Exprs ps ⟨_, c_ps⟩ h2 o ho
    obtain ⟨y, hy⟩ := sh_Ords ob ⟨_, c_ob⟩ h1 o ho
    obtain ⟨a, ha⟩ := sh_Bound st ⟨_, c_st⟩ h3 o ho
    obtain ⟨b, hb⟩ := sh_Bound en ⟨_, hc⟩ h4 o ho
    obtain ⟨pae, hp, _⟩ := ok_list ho (c% "PARTITION") (c% "BY ") x
    obtain ⟨obe, hq, _⟩ := ok_list ho (c% "ORDER") (c% "BY ") y
    rw [hx, hy, ha, hb]
    show ∃ s, (listEntry o (c% "PARTITION") (c% "BY ") x >>= fun pae => listEntry o (c% "ORDER") (c% "BY ") y >>= fun obe =>
      printEntries true (parentEntry p ++ pae ++ obe ++ [(f.text, join (c% " ") [c% "BETWEEN", a, c% "AND", b])]) o) = _
    rw [hp, hq]
    exact print_iff.2 ((win_keys (by rw [listEntry_keys hp, sqls_nil hx]) (by rw [listEntry_keys hq, ords_nil hy])).2 h5)
theorem sh_Grp : ∀ x : Grp, (∃ t, Grp.check x = .ok t) → Grp.Printable x → ∀ (o : Opts), o.spaces < 80 → ∃ s, Grp.sql o x = .ok s
  | .set vs, ⟨_, hc⟩, h, o, ho => by
    rw [Grp_check_set] at hc
    obtain ⟨_, c_vs, hc⟩ := bind_ok hc
    rw [Grp_sql_set]
    exact ok_bind (sh_Exprs vs ⟨_, c_vs⟩ h o ho) fun _ => ok_set ho _
  | .sets gs, ⟨_, hc⟩, h, o, ho => by
    rw [Grp_check_sets] at hc
    obtain ⟨_, c_gs, hc⟩ := bind_ok hc
    rw [Grp_sql_sets]
    exact ok_bind (sh_Lists gs ⟨_, c_gs⟩ (h) o ho) fun _ => ok_bind (ok_join ho _ _) fun _ => ⟨_, rfl⟩
  | .cube vs, ⟨_, hc⟩, h, o, ho => by
    rw [Grp_check_cube] at hc
    obtain ⟨_, c_vs, hc⟩ := bind_ok hc
    rw [Grp_sql_cube]
    exact ok_bind (sh_Exprs vs ⟨_, c_vs⟩ (h) o ho) fun _ => ok_bind (ok_join ho _ _) fun _ => ⟨_, rfl⟩
  | .rollup vs, ⟨_, hc⟩, h, o, ho => by
    rw [Grp_check_rollup] at hc
    obtain ⟨_, c_vs, hc⟩ := bind_ok hc
    rw [Grp_sql_rollup]
    exact ok_bind (sh_Exprs vs ⟨_, c_vs⟩ (h) o ho) fun _ => ok_bind (ok_join ho _ _) fun _ => ⟨_, rfl⟩
theorem sh_GroupBy : ∀ x : GroupBy, (∃ t, GroupBy.check x = .ok t) → GroupBy.Printable x → ∀ (o : Opts), o.spaces < 80 → ∃ s, GroupBy.sql o x = .ok s
  | .mk gs d, ⟨_, hc⟩, h, o, ho => by
    rw [GroupBy_check_mk] at hc
    rw [GroupBy_sql_mk]
    exact ok_bind (sh_Grps gs ⟨_, hc⟩ (h) o ho) fun _ => ok_bind (ok_join ho _ _) fun _ => ⟨_, rfl⟩
theorem sh_Query : ∀ x : Query, (∃ t, Query.check x = .ok t) → Query.Printable x → ∀ (o : Opts), o.spaces < 80 → ∃ s, Query.sql o x = .ok s
  | .mk b off lim ob w, ⟨_, hc⟩, h, o, ho => by
    rw [Query_check_mk] at hc
    obtain ⟨_, c_w, hc⟩ := bind_ok hc
    obtain ⟨_, c_ob, hc⟩ := bind_ok hc
    rw [Query_sql_mk]
    refine sh_QBody b ⟨_, hc⟩ h.1 o ho _ _ fun hs => ?_
    have h' : Ord.PrintableAll ob ∧ Named.PrintableAll w := by
      have := h.2
      cases b with
      | set => exact nomatch hs
      | _ => exact this
    obtain ⟨x, hx⟩ := sh_Nameds w ⟨_, c_w⟩ h'.2 o ho
    obtain ⟨y, hy⟩ := sh_Ords ob ⟨_, c_ob⟩ h'.1 o ho
    obtain ⟨oe, ho1, ho2⟩ := ok_list ho (c% "ORDER") (c% "BY ") y
    refine ⟨?_, oe ++ rowsEntries off lim, ?_, ho2.app (keys_rows off lim)⟩
    · rw [hx]
      exact ok_list ho _ _ x
    · rw [hy]
      show (listEntry o (c% "ORDER") (c% "BY ") y >>= fun oe => Except.ok (oe ++ rowsEntries off lim)) = _
      rw [ho1]
      rfl
theorem sh_QBody : ∀ x : QBody, (∃ t, QBody.check x = .ok t) → x.Printable → ∀ (o : Opts) (_ : o.spaces < 80) (we ce : Except Err Entries), (x.isSet = false → (∃ a, we = .ok a ∧ HeadOk a) ∧ (∃ a, ce = .ok a ∧ TailOk a)) → ∃ s, QBody.sql o we ce x = .ok s
  | .select items fr wh gb hv d wins, ⟨_, hc⟩, h, o, ho, we, ce, he => by
    rw [QBody_check_select] at hc
    obtain ⟨_, c1, hc⟩ := bind_ok hc
    obtain ⟨_, c2, hc⟩ := bind_ok hc
    obtain ⟨_, c3, hc⟩ := bind_ok hc
    obtain ⟨_, c4, hc⟩ := bind_ok hc
    obtain ⟨_, c5, hc⟩ := bind_ok hc
    obtain ⟨_, c6, hc⟩ := bind_ok hc
    obtain ⟨h1, h2, h3, h4, h5, h6⟩ := h
    obtain ⟨hwe, hce⟩ := he rfl
    rw [QBody_sql_select]
    exact ok_bind' hwe fun we hwe => ok_bind (sh_Exprs items ⟨_, c1⟩ h1 o ho) fun _ => ok_bind (ok_join ho _ _) fun _ =>
      ok_bind (sh_RelOpt fr ⟨_, c2⟩ h2 o ho) fun _ => ok_bind (sh_ExprOpt wh ⟨_, c3⟩ h3 o ho) fun _ =>
      ok_bind (sh_GroupByOpt gb ⟨_, c4⟩ h4 o ho) fun _ => ok_bind (sh_ExprOpt hv ⟨_, c5⟩ h5 o ho) fun _ =>
      ok_bind (sh_NamedWins wins ⟨_, c6⟩ h6 o ho) fun _ => ok_bind' (ok_list ho _ _ _) fun _ hwi =>
      ok_bind' hce fun ce hce => ok_select hwe hce hwi
  | .set k l r d, ⟨_, hc⟩, h, o, ho, we, ce, _ => by
    rw [QBody_check_set] at hc
    obtain ⟨_, c1, hc⟩ := bind_ok hc
    obtain ⟨_, c2, hc⟩ := bind_ok hc
    rw [QBody_sql_set]
    exact ok_bind (sh_Query l ⟨_, c1⟩ h.1 o ho) fun _ => ok_bind (sh_Query r ⟨_, c2⟩ h.2 o ho) fun _ => ⟨_, rfl⟩
  | .table t, _, _, o, _, we, ce, he => by
    rw [QBody_sql_table]
    obtain ⟨hwe, hce⟩ := he rfl
    exact ok_bind' hwe fun we hwe => ok_bind' hce fun ce hce => ok_simple hwe hce (.inl rfl)
  | .values es, ⟨_, hc⟩, h, o, ho, we, ce, he => by
    rw [QBody_check_values] at hc
    obtain ⟨_, c1, hc⟩ := bind_ok hc
    rw [QBody_sql_values]
    obtain ⟨hwe, hce⟩ := he rfl
    exact ok_bind' hwe fun we hwe => ok_bind (sh_Exprs es ⟨_, c1⟩ h o ho) fun _ => ok_bind (ok_join ho _ _) fun _ =>
      ok_bind' hce fun ce hce => ok_simple hwe hce (.inr rfl)
theorem sh_Named : ∀ x : Named, (∃ t, Named.check x = .ok t) → Named.Printable x → ∀ (o : Opts), o.spaces < 80 → ∃ s, Named.sql o x = .ok s
  | .mk r a cols, ⟨_, hc⟩, h, o, ho => by
    rw [Named_check_mk] at hc
    rw [Named_sql_mk]
    exact ok_bind (sh_Rel r ⟨_, hc⟩ (h) o ho) fun _ => ok_bind (ok_cols ho _ _ _) fun _ => ⟨_, rfl⟩
theorem sh_Rel : ∀ x : Rel, (∃ t, Rel.check x = .ok t) → Rel.Printable x → ∀ (o : Opts), o.spaces < 80 → ∃ s, Rel.sql o x = .ok s
  | .table t, _, _, o, _ => by
    rw [Rel_sql_table]
    exact ⟨_, rfl⟩
  | .query q, ⟨_, hc⟩, h, o, ho => by
    rw [Rel_check_query] at hc
    obtain ⟨_, c_q, hc⟩ := bind_ok hc
    rw [Rel_sql_query]
    exact sh_Query q ⟨_, c_q⟩ h o ho
  | .aliased n, ⟨_, hc⟩, h, o, ho => by
    rw [Rel_check_aliased] at hc
    rw [Rel_sql_aliased]
    exact sh_Named n ⟨_, hc⟩ h o ho
  | .join l r t nat cr, ⟨_, hc⟩, h, o, ho => by
    rw [Rel_check_join] at hc
    obtain ⟨_, c_l, hc⟩ := bind_ok hc
    obtain ⟨_, c_r, hc⟩ := bind_ok hc
    obtain ⟨_, c_cr, hc⟩ := bind_ok hc
    rw [Rel_sql_join]
    obtain ⟨a, ha⟩ := sh_Rel l ⟨_, c_l⟩ h.1 o ho
    obtain ⟨b, hb⟩ := sh_Rel r ⟨_, c_r⟩ h.2.1 o ho
    obtain ⟨ce, hce⟩ := sh_CritOpt cr ⟨_, c_cr⟩ h.2.2 o ho
    rw [ha, hb, hce]
    exact ok_joinRel (hd_relStr fun hq => hd_rel l o hq ha) (crit_keys hce)
  | .unnest as ord, ⟨_, hc⟩, h, o, ho => by
    rw [Rel_check_unnest] at hc
    obtain ⟨_, c_as, hc⟩ := bind_ok hc
    rw [Rel_sql_unnest]
    exact ok_bind (sh_Exprs as ⟨_, c_as⟩ (h) o ho) fun _ => ok_bind (ok_join ho _ _) fun _ => ⟨_, rfl⟩
  | .lateral q, ⟨_, hc⟩, h, o, ho => by
    rw [Rel_check_lateral] at hc
    obtain ⟨_, c_q, hc⟩ := bind_ok hc
    rw [Rel_sql_lateral]
    exact ok_bind (sh_Query q ⟨_, c_q⟩ (h) o ho) fun _ => ⟨_, rfl⟩
  | .sample r t p, ⟨_, hc⟩, h, o, ho => by
    rw [Rel_check_sample] at hc
    obtain ⟨_, c_r, hc⟩ := bind_ok hc
    obtain ⟨_, c_p, hc⟩ := bind_ok hc
    rw [Rel_sql_sample]
    exact ok_bind (sh_Rel r ⟨_, c_r⟩ (h.1) o ho) fun _ => ok_bind (sh_Expr p ⟨_, c_p⟩ (h.2) false o ho) fun _ => ⟨_, rfl⟩
theorem sh_Crit : ∀ x : Crit, (∃ t, Crit.check x = .ok t) → Crit.Printable x → ∀ (o : Opts), o.spaces < 80 → ∃ s, Crit.entries o x = .ok s
  | .using cols, _, _, o, ho => by
    rw [Crit_entries_using]
    exact ok_bind (ok_join ho _ _) fun _ => ⟨_, rfl⟩
  | .on e, ⟨_, hc⟩, h, o, ho => by
    rw [Crit_check_on] at hc
    obtain ⟨_, c_e, hc⟩ := bind_ok hc
    rw [Crit_entries_on]
    exact ok_bind (sh_Expr e ⟨_, c_e⟩ (h) false o ho) fun _ => ⟨_, rfl⟩
theorem sh_ExprOpt : ∀ x : Option Expr, (∃ t, Expr.checkOpt x = .ok t) → Expr.PrintableOpt x → ∀ (o : Opts), o.spaces < 80 → ∃ s, Expr.sqlOpt o x = .ok s
  | none, _, _, _, _ => ⟨_, rfl⟩
  | some x, ⟨_, hc⟩, h, o, ho => by
    rw [Expr_checkOpt_some] at hc
    obtain ⟨_, hc, _⟩ := bind_ok hc
    rw [Expr_sqlOpt_some]
    exact ok_bind (sh_Expr x ⟨_, hc⟩ (h) false o ho) fun _ => ⟨_, rfl⟩
theorem sh_Exprs : ∀ x : List Expr, (∃ t, Expr.checks x = .ok t) → Expr.PrintableAll x → ∀ (o : Opts), o.spaces < 80 → ∃ s, Expr.sqls o x = .ok s
  | [], _, _, _, _ => ⟨_, rfl⟩
  | x :: r, ⟨_, hc⟩, h, o, ho => by
    rw [Expr_checks_cons] at hc
    obtain ⟨_, c1, hc⟩ := bind_ok hc
    obtain ⟨_, c2, _⟩ := bind_ok hc
    rw [Expr_sqls_cons]
    exact ok_bind (sh_Expr x ⟨_, c1⟩ (h.1) false o ho) fun _ => ok_bind (sh_Exprs r ⟨_, c2⟩ h.2 o ho) fun _ => ⟨_, rfl⟩
theorem sh_Lists : ∀ x : List (List Expr), (∃ t, Expr.checkLists x = .ok t) → Expr.PrintableLists x → ∀ (o : Opts), o.spaces < 80 → ∃ s, Expr.setSqls o x = .ok s
  | [], _, _, _, _ => ⟨_, rfl⟩
  | x :: r, ⟨_, hc⟩, h, o, ho => by
    rw [Expr_checkLists_cons] at hc
    obtain ⟨_, c1, hc⟩ := bind_ok hc
    rw [Expr_setSqls_cons]
    exact ok_bind (sh_Exprs x ⟨_, c1⟩ h.1 o ho) fun _ => ok_bind (ok_set ho _) fun _ => ok_bind (sh_Lists r ⟨_, hc⟩ h.2 o ho) fun _ => ⟨_, rfl⟩
theorem sh_Whens : ∀ x : List (Expr × Expr), (∃ t, Expr.checkWhens x = .ok t) → Expr.PrintableWhens x → ∀ (o : Opts), o.spaces < 80 → ∃ s, Expr.whens o x = .ok s
  | [], _, _, _, _ => ⟨_, rfl⟩
  | (c, v) :: r, ⟨_, hc⟩, h, o, ho => by
    rw [Expr_checkWhens_cons] at hc
    obtain ⟨_, c1, hc⟩ := bind_ok hc
    obtain ⟨_, c2, hc⟩ := bind_ok hc
    obtain ⟨_, c3, _⟩ := bind_ok hc
    rw [Expr_whens_cons]
    exact ok_bind (sh_Expr c ⟨_, c1⟩ h.1 false o ho) fun _ => ok_bind (sh_Expr v ⟨_, c2⟩ h.2.1 false o ho) fun _ => ok_bind (sh_Whens r ⟨_, c3⟩ h.2.2 o ho) fun _ => ⟨_, rfl⟩
theorem sh_Ords : ∀ x : List Ord, (∃ t, Ord.checks x = .ok t) → Ord.PrintableAll x → ∀ (o : Opts), o.spaces < 80 → ∃ s, Ord.sqls o x = .ok s
  | [], _, _, _, _ => ⟨_, rfl⟩
  | .mk v d nf :: r, ⟨_, hc⟩, h, o, ho => by
    obtain ⟨_, c1, hc⟩ := bind_ok (show (Expr.check v >>= fun _ => Ord.checks r) = _ from hc)
    rw [Ord_sqls_cons, Ord_sql_mk]
    exact ok_bind (ok_bind (sh_Expr v ⟨_, c1⟩ h.1 false o ho) fun _ => ⟨_, rfl⟩) fun _ => ok_bind (sh_Ords r ⟨_, hc⟩ h.2 o ho) fun _ => ⟨_, rfl⟩
theorem sh_WinOpt : ∀ x : Option Win, (∃ t, Win.checkOpt x = .ok t) → Win.PrintableOpt x → ∀ (o : Opts), o.spaces < 80 → ∃ s, Win.sqlOpt o x = .ok s
  | none, _, _, _, _ => ⟨_, rfl⟩
  | some x, ⟨_, hc⟩, h, o, ho => by
    rw [Win_checkOpt_some] at hc
    rw [Win_sqlOpt_some]
    exact ok_bind (sh_Win x ⟨_, hc⟩ (h) o ho) fun _ => ⟨_, rfl⟩
theorem sh_Grps : ∀ x : List Grp, (∃ t, Grp.checks x = .ok t) → Grp.PrintableAll x → ∀ (o : Opts), o.spaces < 80 → ∃ s, Grp.sqls o x = .ok s
  | [], _, _, _, _ => ⟨_, rfl⟩
  | x :: r, ⟨_, hc⟩, h, o, ho => by
    rw [Grp_checks_cons] at hc
    obtain ⟨_, c1, hc⟩ := bind_ok hc
    rw [Grp_sqls_cons]
    exact ok_bind (sh_Grp x ⟨_, c1⟩ (h.1) o ho) fun _ => ok_bind (sh_Grps r ⟨_, hc⟩ h.2 o ho) fun _ => ⟨_, rfl⟩
theorem sh_GroupByOpt : ∀ x : Option GroupBy, (∃ t, GroupBy.checkOpt x = .ok t) → GroupBy.PrintableOpt x → ∀ (o : Opts), o.spaces < 80 → ∃ s, GroupBy.sqlOpt o x = .ok s
  | none, _, _, _, _ => ⟨_, rfl⟩
  | some x, ⟨_, hc⟩, h, o, ho => by
    rw [GroupBy_checkOpt_some] at hc
    rw [GroupBy_sqlOpt_some]
    exact ok_bind (sh_GroupBy x ⟨_, hc⟩ (h) o ho) fun _ => ⟨_, rfl⟩
theorem sh_NamedWins : ∀ x : List (Str × Win), (∃ t, Win.checkNamed x = .ok t) → Win.PrintableNamed x → ∀ (o : Opts), o.spaces < 80 → ∃ s, Win.namedSqls o x = .ok s
  | [], _, _, _, _ => ⟨_, rfl⟩
  | (n, x) :: r, ⟨_, hc⟩, h, o, ho => by
    rw [Win_checkNamed_cons] at hc
    obtain ⟨_, c1, hc⟩ := bind_ok hc
    rw [Win_namedSqls_cons]
    exact ok_bind (sh_Win x ⟨_, c1⟩ h.1 o ho) fun _ => ok_bind (sh_NamedWins r ⟨_, hc⟩ h.2 o ho) fun _ => ⟨_, rfl⟩
theorem sh_Nameds : ∀ x : List Named, (∃ t, Named.checks x = .ok t) → Named.PrintableAll x → ∀ (o : Opts), o.spaces < 80 → ∃ s, Named.namedSqls o x = .ok s
  | [], _, _, _, _ => ⟨_, rfl⟩
  | x :: r, ⟨_, hc⟩, h, o, ho => by
    rw [Named_checks_cons] at hc
    obtain ⟨_, c1, hc⟩ := bind_ok hc
    rw [Named_namedSqls_cons]
    exact ok_bind (sh_NamedQ x ⟨_, c1⟩ h.1 o ho) fun _ => ok_bind (sh_Nameds r ⟨_, hc⟩ h.2 o ho) fun _ => ⟨_, rfl⟩
theorem sh_RelOpt : ∀ x : Option Rel, (∃ t, Rel.checkOpt x = .ok t) → Rel.PrintableOpt x → ∀ (o : Opts), o.spaces < 80 → ∃ s, Rel.sqlOpt o x = .ok s
  | none, _, _, _, _ => ⟨_, rfl⟩
  | some x, ⟨_, hc⟩, h, o, ho => by
    rw [Rel_checkOpt_some] at hc
    rw [Rel_sqlOpt_some]
    exact ok_bind (sh_Rel x ⟨_, hc⟩ (h) o ho) fun _ => ⟨_, rfl⟩
theorem sh_CritOpt : ∀ x : Option Crit, (∃ t, Crit.checkOpt x = .ok t) → Crit.PrintableOpt x → ∀ (o : Opts), o.spaces < 80 → ∃ s, Crit.entriesOpt o x = .ok s
  | none, _, _, _, _ => ⟨_, rfl⟩
  | some x, ⟨_, hc⟩, h, o, ho => by
    rw [Crit_checkOpt_some] at hc
    rw [Crit_entriesOpt_some]
    exact sh_Crit x ⟨_, hc⟩ (h) o ho
theorem sh_NamedQ : ∀ x : Named, (∃ t, x.check = .ok t) → x.Printable → ∀ o : Opts, o.spaces < 80 → ∃ s, Named.namedSql o x = .ok s
  | .mk r a cols, ⟨_, hc⟩, h, o, ho => by
    rw [Named_check_mk] at hc
    rw [Named_namedSql_mk]
    exact ok_bind (ok_cols ho _ _ _) fun _ => ok_bind (sh_Rel r ⟨_, hc⟩ h o ho) fun _ => ⟨_, rfl⟩
end

set_option maxHeartbeats 1600000 in
mutual
theorem hs_Expr : ∀ (x : Expr) (neg : Bool) (o : Opts) {s}, Expr.sqlN neg o x = .ok s → Expr.Printable x
  | .lit v t, _, _, _, _ => trivial
  | .field n tn t, _, _, _, _ => trivial
  | .fieldOf n b t, neg, o, _, h => by
    rw [Expr_sqlN_fieldOf] at h
    obtain ⟨_, s_b, h⟩ := bind_ok h
    exact hs_Expr b false o s_b
  | .alias v n, neg, o, _, h => by
    rw [Expr_sqlN_alias] at h
    obtain ⟨_, s_v, h⟩ := bind_ok h
    exact hs_Expr v false o s_v
  | .star tn t, _, _, _, _ => trivial
  | .starOf b t, neg, o, _, h => by
    rw [Expr_sqlN_starOf] at h
    obtain ⟨_, s_b, h⟩ := bind_ok h
    exact hs_Expr b false o s_b
  | .aliasedStar s as, neg, o, _, h => by
    rw [Expr_sqlN_aliasedStar] at h
    obtain ⟨_, _, h⟩ := bind_ok h
    obtain ⟨_, s_s, h⟩ := bind_ok h
    exact hs_Expr s false o s_s
  | .var n, _, _, _, _ => trivial
  | .lam ins b, neg, o, _, h => by
    rw [Expr_sqlN_lam] at h
    obtain ⟨_, _, h⟩ := bind_ok h
    obtain ⟨_, s_b, h⟩ := bind_ok h
    exact hs_Expr b false o s_b
  | .un op v, neg, o, _, h => by
    rw [Expr_sqlN_un] at h
    obtain ⟨_, s_v, h⟩ := bind_ok h
    exact (pemdas_any s_v (hs_Expr v false o) (hs_Expr v false dfltOpts))
  | .bin op l r, neg, o, s, h => by
    rw [Expr_sqlN_bin] at h
    dsimp only at h
    obtain ⟨_, s_l, h⟩ := bind_ok h
    obtain ⟨_, s_r, h⟩ := bind_ok h
    exact ⟨pemdas_any s_l (hs_Expr l false _) (hs_Expr l false dfltOpts), pemdas_any s_r (hs_Expr r false _) (hs_Expr r false dfltOpts)⟩
  | .not v, neg, o, s, h => by
    rw [Expr_sqlN_not] at h
    split at h
    · exact hs_Expr v true o h
    · obtain ⟨_, s_v, h⟩ := bind_ok h
      exact pemdas_any s_v (hs_Expr v false o) (hs_Expr v false dfltOpts)
  | .isNull v, neg, o, _, h => by
    rw [Expr_sqlN_isNull] at h
    obtain ⟨_, s_v, h⟩ := bind_ok h
    exact (pemdas_any s_v (hs_Expr v false o) (hs_Expr v false dfltOpts))
  | .between v l u, neg, o, _, h => by
    rw [Expr_sqlN_between] at h
    obtain ⟨_, s_v, h⟩ := bind_ok h
    obtain ⟨_, s_l, h⟩ := bind_ok h
    obtain ⟨_, s_u, h⟩ := bind_ok h
    exact ⟨(pemdas_any s_v (hs_Expr v false o) (hs_Expr v false dfltOpts)), (pemdas_any s_l (hs_Expr l false o) (hs_Expr l false dfltOpts)), (pemdas_any s_u (hs_Expr u false o) (hs_Expr u false dfltOpts))⟩
  | .array vs, neg, o, _, h => by
    rw [Expr_sqlN_array] at h
    obtain ⟨_, s_vs, h⟩ := bind_ok h
    obtain ⟨_, _, h⟩ := bind_ok h
    exact hs_Exprs vs o s_vs
  | .inQuery v q, neg, o, _, h => by
    rw [Expr_sqlN_inQuery] at h
    obtain ⟨_, s_v, h⟩ := bind_ok h
    obtain ⟨_, s_q, h⟩ := bind_ok h
    exact ⟨(pemdas_any s_v (hs_Expr v false o) (hs_Expr v false dfltOpts)), hs_Query q o s_q⟩
  | .inList v es, neg, o, _, h => by
    rw [Expr_sqlN_inList] at h
    obtain ⟨_, s_es, h⟩ := bind_ok h
    obtain ⟨_, _, h⟩ := bind_ok h
    obtain ⟨_, s_v, h⟩ := bind_ok h
    exact ⟨(pemdas_any s_v (hs_Expr v false o) (hs_Expr v false dfltOpts)), hs_Exprs es o s_es⟩
  | .like v p e, neg, o, _, h => by
    rw [Expr_sqlN_like] at h
    obtain ⟨_, s_v, h⟩ := bind_ok h
    obtain ⟨_, s_p, h⟩ := bind_ok h
    obtain ⟨_, s_e, h⟩ := bind_ok h
    exact ⟨(pemdas_any s_v (hs_Expr v false o) (hs_Expr v false dfltOpts)), (pemdas_any s_p (hs_Expr p false o) (hs_Expr p false dfltOpts)), hs_ExprOpt e o s_e⟩
  | .typeCtor v t, _, _, _, _ => trivial
  | .row vs, neg, o, _, h => by
    rw [Expr_sqlN_row] at h
    obtain ⟨_, s_vs, h⟩ := bind_ok h
    obtain ⟨_, _, h⟩ := bind_ok h
    exact hs_Exprs vs o s_vs
  | .interval v f t, _, _, _, _ => trivial
  | .cast tr e t, neg, o, _, h => by
    rw [Expr_sqlN_cast] at h
    obtain ⟨_, s_e, h⟩ := bind_ok h
    exact hs_Expr e false o s_e
  | .subscript v i, neg, o, _, h => by
    rw [Expr_sqlN_subscript] at h
    obtain ⟨_, s_v, h⟩ := bind_ok h
    obtain ⟨_, s_i, h⟩ := bind_ok h
    exact ⟨hs_Expr v false o s_v, hs_Expr i false o s_i⟩
  | .case v bs e, neg, o, _, h => by
    rw [Expr_sqlN_case] at h
    obtain ⟨_, s_bs, h⟩ := bind_ok h
    obtain ⟨_, s_e, h⟩ := bind_ok h
    obtain ⟨_, s_v, h⟩ := bind_ok h
    exact ⟨hs_ExprOpt v o s_v, hs_Whens bs o s_bs, hs_ExprOpt e o s_e⟩
  | .func f as, neg, o, _, h => by
    rw [Expr_sqlN_func] at h
    obtain ⟨_, s_as, h⟩ := bind_ok h
    obtain ⟨_, _, h⟩ := bind_ok h
    exact hs_Exprs as o s_as
  | .agg f as ob fl w ign, neg, o, _, h => by
    rw [Expr_sqlN_agg] at h
    obtain ⟨_, s_as, h⟩ := bind_ok h
    obtain ⟨_, _, h⟩ := bind_ok h
    obtain ⟨_, s_ob, h⟩ := bind_ok h
    obtain ⟨_, _, h⟩ := bind_ok h
    obtain ⟨_, s_fl, h⟩ := bind_ok h
    obtain ⟨_, s_w, h⟩ := bind_ok h
    obtain ⟨_, _, h⟩ := bind_ok h
    exact ⟨hs_Exprs as o s_as, hs_Ords ob o s_ob, hs_ExprOpt fl o s_fl, hs_WinOpt w o s_w⟩
  | .listagg v sep ov ob, neg, o, s, h => by
    rw [Expr_sqlN_listagg] at h
    obtain ⟨_, s_v, h⟩ := bind_ok h
    obtain ⟨_, _, h⟩ := bind_ok h
    obtain ⟨_, s_ob, h⟩ := bind_ok h
    exact ⟨hs_Expr v false o s_v, hs_Ords ob o s_ob⟩
  | .curTime f p, _, _, _, _ => trivial
  | .session f, _, _, _, _ => trivial
  | .normalize _ _, _, _, _, h => nomatch h
  | .query q, neg, o, s, h => by
    rw [Expr_sqlN_query] at h
    exact hs_Query q o h
theorem hs_Ord : ∀ (x : Ord) (o : Opts) {s}, Ord.sql o x = .ok s → Ord.Printable x
  | .mk v d nf, o, _, h => by
    rw [Ord_sql_mk] at h
    obtain ⟨_, s_v, h⟩ := bind_ok h
    exact hs_Expr v false o s_v
theorem hs_Bound : ∀ (x : Bound) (o : Opts) {s}, Bound.sql o x = .ok s → Bound.Printable x
  | .bounded t e, o, _, h => by
    rw [Bound_sql_bounded] at h
    obtain ⟨_, s_e, h⟩ := bind_ok h
    exact hs_Expr e false o s_e
  | .unbounded t, _, _, _ => trivial
  | .current, _, _, _ => trivial
theorem hs_Win : ∀ (x : Win) (o : Opts) {s}, Win.sql o x = .ok s → Win.Printable x
  | .mk p ob ps f st en, o, s, h => by
    rw [Win_sql_mk] at h
    obtain ⟨x, hx, h⟩ := bind_ok h
    obtain ⟨pae, hp, h⟩ := bind_ok h
    obtain ⟨y, hy, h⟩ := bind_ok h
    obtain ⟨obe, hq, h⟩ := bind_ok h
    obtain ⟨a, ha, h⟩ := bind_ok h
    obtain ⟨b, hb, h⟩ := bind_ok h
    exact ⟨hs_Ords ob o hy, hs_Exprs ps o hx, hs_Bound st o ha, hs_Bound en o hb,
      (win_keys (by rw [listEntry_keys hp, sqls_nil hx]) (by rw [listEntry_keys hq, ords_nil hy])).1 (print_iff.1 ⟨_, h⟩)⟩
theorem hs_Grp : ∀ (x : Grp) (o : Opts) {s}, Grp.sql o x = .ok s → Grp.Printable x
  | .set vs, o, s, h => by
    rw [Grp_sql_set] at h
    obtain ⟨_, s_vs, h⟩ := bind_ok h
    exact hs_Exprs vs o s_vs
  | .sets gs, o, _, h => by
    rw [Grp_sql_sets] at h
    obtain ⟨_, s_gs, h⟩ := bind_ok h
    obtain ⟨_, _, h⟩ := bind_ok h
    exact hs_Lists gs o s_gs
  | .cube vs, o, _, h => by
    rw [Grp_sql_cube] at h
    obtain ⟨_, s_vs, h⟩ := bind_ok h
    obtain ⟨_, _, h⟩ := bind_ok h
    exact hs_Exprs vs o s_vs
  | .rollup vs, o, _, h => by
    rw [Grp_sql_rollup] at h
    obtain ⟨_, s_vs, h⟩ := bind_ok h
    obtain ⟨_, _, h⟩ := bind_ok h
    exact hs_Exprs vs o s_vs
theorem hs_GroupBy : ∀ (x : GroupBy) (o : Opts) {s}, GroupBy.sql o x = .ok s → GroupBy.Printable x
  | .mk gs d, o, _, h => by
    rw [GroupBy_sql_mk] at h
    obtain ⟨_, s_gs, h⟩ := bind_ok h
    obtain ⟨_, _, h⟩ := bind_ok h
    exact hs_Grps gs o s_gs
theorem hs_Query : ∀ (x : Query) (o : Opts) {s}, Query.sql o x = .ok s → Query.Printable x
  | .mk b off lim ob w, o, s, h => by
    rw [Query_sql_mk] at h
    refine ⟨hs_QBody b o _ _ h, ?_⟩
    cases b with
    | set => trivial
    | select items fr wh gb hv d wins =>
      rw [QBody_sql_select] at h
      obtain ⟨_, hw, h⟩ := bind_ok h
      obtain ⟨_, hw, _⟩ := bind_ok hw
      obtain ⟨_, _, h⟩ := bind_ok h
      obtain ⟨_, _, h⟩ := bind_ok h
      obtain ⟨_, _, h⟩ := bind_ok h
      obtain ⟨_, _, h⟩ := bind_ok h
      obtain ⟨_, _, h⟩ := bind_ok h
      obtain ⟨_, _, h⟩ := bind_ok h
      obtain ⟨_, _, h⟩ := bind_ok h
      obtain ⟨_, _, h⟩ := bind_ok h
      obtain ⟨_, hc, h⟩ := bind_ok h
      obtain ⟨_, hc, _⟩ := bind_ok hc
      exact ⟨hs_Ords ob o hc, hs_Nameds w o hw⟩
    | table t =>
      rw [QBody_sql_table] at h
      obtain ⟨_, hw, h⟩ := bind_ok h
      obtain ⟨_, hw, _⟩ := bind_ok hw
      obtain ⟨_, hc, h⟩ := bind_ok h
      obtain ⟨_, hc, _⟩ := bind_ok hc
      exact ⟨hs_Ords ob o hc, hs_Nameds w o hw⟩
    | values es =>
      rw [QBody_sql_values] at h
      obtain ⟨_, hw, h⟩ := bind_ok h
      obtain ⟨_, hw, _⟩ := bind_ok hw
      obtain ⟨_, _, h⟩ := bind_ok h
      obtain ⟨_, _, h⟩ := bind_ok h
      obtain ⟨_, hc, h⟩ := bind_ok h
      obtain ⟨_, hc, _⟩ := bind_ok hc
      exact ⟨hs_Ords ob o hc, hs_Nameds w o hw⟩
theorem hs_QBody : ∀ (x : QBody) (o : Opts) (we ce : Except Err Entries) {s}, QBody.sql o we ce x = .ok s → x.Printable
  | .select items fr wh gb hv d wins, o, we, ce, s, h => by
    rw [QBody_sql_select] at h
    obtain ⟨_, _, h⟩ := bind_ok h
    obtain ⟨_, s1, h⟩ := bind_ok h
    obtain ⟨_, _, h⟩ := bind_ok h
    obtain ⟨_, s2, h⟩ := bind_ok h
    obtain ⟨_, s3, h⟩ := bind_ok h
    obtain ⟨_, s4, h⟩ := bind_ok h
    obtain ⟨_, s5, h⟩ := bind_ok h
    obtain ⟨_, s6, h⟩ := bind_ok h
    exact ⟨hs_Exprs items o s1, hs_RelOpt fr o s2, hs_ExprOpt wh o s3, hs_GroupByOpt gb o s4, hs_ExprOpt hv o s5, hs_NamedWins wins o s6⟩
  | .set k l r d, o, we, ce, _, h => by
    rw [QBody_sql_set] at h
    obtain ⟨_, s_l, h⟩ := bind_ok h
    obtain ⟨_, s_r, h⟩ := bind_ok h
    exact ⟨hs_Query l o s_l, hs_Query r o s_r⟩
  | .table t, _, _, _, _, _ => trivial
  | .values es, o, we, ce, s, h => by
    rw [QBody_sql_values] at h
    obtain ⟨_, _, h⟩ := bind_ok h
    obtain ⟨_, s1, h⟩ := bind_ok h
    exact hs_Exprs es o s1
theorem hs_Named : ∀ (x : Named) (o : Opts) {s}, Named.sql o x = .ok s → Named.Printable x
  | .mk r a cols, o, _, h => by
    rw [Named_sql_mk] at h
    obtain ⟨_, s_r, h⟩ := bind_ok h
    obtain ⟨_, _, h⟩ := bind_ok h
    exact hs_Rel r o s_r
theorem hs_Rel : ∀ (x : Rel) (o : Opts) {s}, Rel.sql o x = .ok s → Rel.Printable x
  | .table t, _, _, _ => trivial
  | .query q, o, s, h => by
    rw [Rel_sql_query] at h
    exact hs_Query q o h
  | .aliased n, o, s, h => by
    rw [Rel_sql_aliased] at h
    exact hs_Named n o h
  | .join l r t nat cr, o, s, h => by
    rw [Rel_sql_join] at h
    obtain ⟨_, s_l, h⟩ := bind_ok h
    obtain ⟨_, s_r, h⟩ := bind_ok h
    obtain ⟨_, s_cr, h⟩ := bind_ok h
    exact ⟨hs_Rel l o s_l, hs_Rel r o s_r, hs_CritOpt cr o s_cr⟩
  | .unnest as ord, o, _, h => by
    rw [Rel_sql_unnest] at h
    obtain ⟨_, s_as, h⟩ := bind_ok h
    obtain ⟨_, _, h⟩ := bind_ok h
    exact hs_Exprs as o s_as
  | .lateral q, o, _, h => by
    rw [Rel_sql_lateral] at h
    obtain ⟨_, s_q, h⟩ := bind_ok h
    exact hs_Query q o s_q
  | .sample r t p, o, _, h => by
    rw [Rel_sql_sample] at h
    obtain ⟨_, s_r, h⟩ := bind_ok h
    obtain ⟨_, s_p, h⟩ := bind_ok h
    exact ⟨hs_Rel r o s_r, hs_Expr p false o s_p⟩
theorem hs_Crit : ∀ (x : Crit) (o : Opts) {s}, Crit.entries o x = .ok s → Crit.Printable x
  | .using cols, _, _, _ => trivial
  | .on e, o, _, h => by
    rw [Crit_entries_on] at h
    obtain ⟨_, s_e, h⟩ := bind_ok h
    exact hs_Expr e false o s_e
theorem hs_ExprOpt : ∀ (x : Option Expr) (o : Opts) {s}, Expr.sqlOpt o x = .ok s → Expr.PrintableOpt x
  | none, _, _, _ => trivial
  | some x, o, s, h => by
    rw [Expr_sqlOpt_some] at h
    obtain ⟨_, h, _⟩ := bind_ok h
    exact hs_Expr x false o h
theorem hs_Exprs : ∀ (x : List Expr) (o : Opts) {s}, Expr.sqls o x = .ok s → Expr.PrintableAll x
  | [], _, _, _ => trivial
  | x :: r, o, s, h => by
    rw [Expr_sqls_cons] at h
    obtain ⟨_, h1, h⟩ := bind_ok h
    obtain ⟨_, h2, h⟩ := bind_ok h
    exact ⟨hs_Expr x false o h1, hs_Exprs r o h2⟩
theorem hs_Lists : ∀ (x : List (List Expr)) (o : Opts) {s}, Expr.setSqls o x = .ok s → Expr.PrintableLists x
  | [], _, _, _ => trivial
  | x :: r, o, s, h => by
    rw [Expr_setSqls_cons] at h
    obtain ⟨_, h1, h⟩ := bind_ok h
    obtain ⟨_, _, h⟩ := bind_ok h
    obtain ⟨_, h2, h⟩ := bind_ok h
    exact ⟨hs_Exprs x o h1, hs_Lists r o h2⟩
theorem hs_Whens : ∀ (x : List (Expr × Expr)) (o : Opts) {s}, Expr.whens o x = .ok s → Expr.PrintableWhens x
  | [], _, _, _ => trivial
  | (c, v) :: r, o, s, h => by
    rw [Expr_whens_cons] at h
    obtain ⟨_, h1, h⟩ := bind_ok h
    obtain ⟨_, h2, h⟩ := bind_ok h
    obtain ⟨_, h3, h⟩ := bind_ok h
    exact ⟨hs_Expr c false o h1, hs_Expr v false o h2, hs_Whens r o h3⟩
theorem hs_Ords : ∀ (x : List Ord) (o : Opts) {s}, Ord.sqls o x = .ok s → Ord.PrintableAll x
  | [], _, _, _ => trivial
  | x :: r, o, s, h => by
    rw [Ord_sqls_cons] at h
    obtain ⟨_, h1, h⟩ := bind_ok h
    obtain ⟨_, h2, h⟩ := bind_ok h
    exact ⟨hs_Ord x o h1, hs_Ords r o h2⟩
theorem hs_WinOpt : ∀ (x : Option Win) (o : Opts) {s}, Win.sqlOpt o x = .ok s → Win.PrintableOpt x
  | none, _, _, _ => trivial
  | some x, o, s, h => by
    rw [Win_sqlOpt_some] at h
    obtain ⟨_, h, _⟩ := bind_ok h
    exact hs_Win x o h
theorem hs_Grps : ∀ (x : List Grp) (o : Opts) {s}, Grp.sqls o x = .ok s → Grp.PrintableAll x
  | [], _, _, _ => trivial
  | x :: r, o, s, h => by
    rw [Grp_sqls_cons] at h
    obtain ⟨_, h1, h⟩ := bind_ok h
    obtain ⟨_, h2, h⟩ := bind_ok h
    exact ⟨hs_Grp x o h1, hs_Grps r o h2⟩
theorem hs_GroupByOpt : ∀ (x : Option GroupBy) (o : Opts) {s}, GroupBy.sqlOpt o x = .ok s → GroupBy.PrintableOpt x
  | none, _, _, _ => trivial
  | some x, o, s, h => by
    rw [GroupBy_sqlOpt_some] at h
    obtain ⟨_, h, _⟩ := bind_ok h
    exact hs_GroupBy x o h
theorem hs_NamedWins : ∀ (x : List (Str × Win)) (o : Opts) {s}, Win.namedSqls o x = .ok s → Win.PrintableNamed x
  | [], _, _, _ => trivial
  | (n, x) :: r, o, s, h => by
    rw [Win_namedSqls_cons] at h
    obtain ⟨_, h1, h⟩ := bind_ok h
    obtain ⟨_, h2, h⟩ := bind_ok h
    exact ⟨hs_Win x o h1, hs_NamedWins r o h2⟩
theorem hs_Nameds : ∀ (x : List Named) (o : Opts) {s}, Named.namedSqls o x = .ok s → Named.PrintableAll x
  | [], _, _, _ => trivial
  | x :: r, o, s, h => by
    rw [Named_namedSqls_cons] at h
    obtain ⟨_, h1, h⟩ := bind_ok h
    obtain ⟨_, h2, h⟩ := bind_ok h
    exact ⟨hs_NamedQ x o h1, hs_Nameds r o h2⟩
theorem hs_RelOpt : ∀ (x : Option Rel) (o : Opts) {s}, Rel.sqlOpt o x = .ok s → Rel.PrintableOpt x
  | none, _, _, _ => trivial
  | some x, o, s, h => by
    rw [Rel_sqlOpt_some] at h
    obtain ⟨_, h, _⟩ := bind_ok h
    exact hs_Rel x o h
theorem hs_CritOpt : ∀ (x : Option Crit) (o : Opts) {s}, Crit.entriesOpt o x = .ok s → Crit.PrintableOpt x
  | none, _, _, _ => trivial
  | some x, o, s, h => by
    rw [Crit_entriesOpt_some] at h
    exact hs_Crit x o h
theorem hs_NamedQ : ∀ (x : Named) (o : Opts) {s}, Named.namedSql o x = .ok s → x.Printable
  | .mk r a cols, o, s, h => by
    rw [Named_namedSql_mk] at h
    obtain ⟨_, _, h⟩ := bind_ok h
    obtain ⟨_, s_r, h⟩ := bind_ok h
    exact hs_Rel r o s_r
end

end Treeno
