import Verif.Lemmas.PrintToks
import Verif.Lemmas.PlainEqs
import Verif.Lemmas.FitsEqs
/-!
# The parse tree of a printed text is one that the parser reads back
-/
namespace Treeno
open Spec

/-! ## Tokens -/

theorem word_of {w : Str} (h : FreeWord w) : Word (wordOf w) := by
  unfold wordOf
  cases hk : isKeyword w with
  | false => exact ⟨.inl rfl, fun h => nomatch h⟩
  | true => exact ⟨.inr (.inr (.inr (.inr ⟨rfl, (h hk).1⟩))), fun _ => (h hk).2⟩

theorem word_name (n : Str) : Word (nameTok n) := ⟨.inr (.inl rfl), fun h => nomatch h⟩

theorem words_of {ws : List Str} (h : ∀ w ∈ ws, FreeWord w) : Words (ws.map wordOf) := by
  intro t ht
  obtain ⟨w, hw, rfl⟩ := List.mem_map.1 ht
  exact word_of (h w hw)

theorem word_opt {o : Option Str} (h : IfAny FreeWord o) : Opt Word (o.map wordOf) := by
  cases o with
  | none => intro t h; exact nomatch h
  | some w => intro t ht; cases ht; exact word_of (h w rfl)

theorem fn_free (f : Fn) : FreeWord f.name := by unfold FreeWord; cases f <;> decide +kernel
theorem agg_free (f : Agg) : FreeWord f.name := by unfold FreeWord; cases f <;> decide +kernel

theorem kwIn {ks : List Str} {k : Str} (h : k ∈ ks) : KwIn ks (kwT k) := List.mem_map.mpr ⟨k, h, rfl⟩
theorem symIn {ks : List Str} {k : Str} (h : k ∈ ks) : SymIn ks (symT k) := List.mem_map.mpr ⟨k, h, rfl⟩

/-! ## Levels -/

theorem litCst_rank {v : Option Scalar} : (litCst v).rank = 8 := by
  cases v with
  | none => rfl
  | some v => cases v <;> rfl

theorem binCst_rank (neg : Bool) (op : BinOp) (l r : CE) : (binCst neg op l r).rank = opLevel op := by
  cases op <;> first | rfl | decide

theorem signCst_rank (op : UnOp) (c : CE) : 7 ≤ (signCst op c).rank := by
  unfold signCst
  split
  · exact (by decide : 7 ≤ 8)
  · exact (by decide : 7 ≤ 7)

theorem rank_neg {v : Expr} (h : v.negatable = true) : (v.cst true).rank = 3 := by
  cases v with
  | bin op l r =>
    rw [Expr_cst_bin, binCst_rank]
    cases op <;> first | rfl | exact nomatch h
  | isNull | like | between | inList | inQuery => rfl
  | _ => exact nomatch h

theorem isNumber_cst {v : Expr} (h : isNumber v = true) : ∃ t, v.cst false = .num false t ∧ Num t ∧ needsParen (some 8) v.prec true = false := by
  cases v with
  | lit v t =>
    rw [Expr_cst_lit]
    cases v with
    | none => exact nomatch h
    | some v =>
      cases v with
      | int n =>
        have : ¬ n < 0 := by have := of_decide_eq_true h; omega
        exact ⟨_, by show CE.num _ _ = _; rw [decide_eq_false this], .inl rfl, rfl⟩
      | dec d =>
        have : d.neg = false := by simpa [isNumber] using h
        exact ⟨_, by show CE.num _ _ = _; rw [this], .inr (.inl rfl), rfl⟩
      | _ => exact nomatch h
  | _ => exact nomatch h

theorem rank_cst {v : Expr} (ht : v.Tidy false) : v.level ≤ (v.cst false).rank := by
  cases v with
  | lit v t => rw [Expr_cst_lit, litCst_rank]; exact Nat.le_refl _
  | field n t ty =>
    rw [Expr_cst_field]
    unfold fieldCst
    split <;> exact Nat.le_refl _
  | fieldOf | starOf | aliasedStar | interval | normalize | query => exact ht.elim
  | «alias» v n => exact nomatch ht.1
  | star t ty => exact nomatch ht.1
  | lam ins b => exact Nat.zero_le _
  | un op v =>
    rw [Expr_cst_un]
    show (if _ then _ else _) ≤ _
    split
    · next h =>
      obtain ⟨t, h1, h2, h3⟩ := isNumber_cst h.2
      rw [h1, h3, h.1]
      exact Nat.le_refl _
    · exact signCst_rank _ _
  | bin op l r => rw [Expr_cst_bin, binCst_rank]; exact Nat.le_refl _
  | not v =>
    rw [Expr_cst_not]
    show (if _ then _ else _) ≤ _
    cases h : v.negatable with
    | true => rw [if_pos rfl, if_pos rfl, rank_neg h]; exact Nat.le_refl _
    | false => rw [if_neg (by decide), if_neg (by decide)]; exact Nat.le_refl _
  | agg f as ob fl w ign =>
    rw [Expr_cst_agg]
    unfold aggCst
    split <;> exact Nat.le_refl _
  | session f => cases f <;> exact Nat.le_refl _
  | _ => exact Nat.le_refl _

theorem isLam_cst {v : Expr} (ht : v.Tidy false) (h : isLambda v = false) : (v.cst false).isLam = false := by
  cases v with
  | lit v t =>
    rw [Expr_cst_lit]
    cases v with
    | none => rfl
    | some v => cases v <;> rfl
  | field n t ty =>
    rw [Expr_cst_field]
    unfold fieldCst
    split <;> rfl
  | fieldOf | starOf | aliasedStar | interval | normalize | query => exact ht.elim
  | «alias» v n => exact nomatch ht.1
  | star t ty => exact nomatch ht.1
  | lam ins b => exact nomatch h
  | un op v =>
    rw [Expr_cst_un]
    unfold signCst
    split <;> rfl
  | bin op l r =>
    rw [Expr_cst_bin]
    cases op <;> rfl
  | not v =>
    rw [Expr_cst_not]
    split
    · next h =>
      cases v with
      | bin op l r => rw [Expr_cst_bin]; cases op <;> rfl
      | isNull | like | between | inList | inQuery => rfl
      | _ => exact nomatch h
    · rfl
  | agg f as ob fl w ign =>
    rw [Expr_cst_agg]
    unfold aggCst
    split <;> rfl
  | session f => cases f <;> rfl
  | _ => rfl

theorem isPar_cst {v : Expr} (ht : v.Tidy false) (h : v.isRow = false) : (v.cst false).isPar = false := by
  cases v with
  | lit v t =>
    rw [Expr_cst_lit]
    cases v with
    | none => rfl
    | some v => cases v <;> rfl
  | field n t ty =>
    rw [Expr_cst_field]
    unfold fieldCst
    split <;> rfl
  | fieldOf | starOf | aliasedStar | interval | normalize | query => exact ht.elim
  | «alias» v n => exact nomatch ht.1
  | star t ty => exact nomatch ht.1
  | row vs => exact nomatch h
  | un op v =>
    rw [Expr_cst_un]
    unfold signCst
    split <;> rfl
  | bin op l r =>
    rw [Expr_cst_bin]
    cases op <;> rfl
  | not v =>
    rw [Expr_cst_not]
    split
    · next h =>
      cases v with
      | bin op l r => rw [Expr_cst_bin]; cases op <;> rfl
      | isNull | like | between | inList | inQuery => rfl
      | _ => exact nomatch h
    · rfl
  | agg f as ob fl w ign =>
    rw [Expr_cst_agg]
    unfold aggCst
    split <;> rfl
  | session f => cases f <;> rfl
  | _ => rfl

theorem isSet_cst {v : Expr} (ht : v.Tidy false) (h : v.isRow = false) : (v.cst false).isSet = false := by
  have := isPar_cst ht h
  cases hc : v.cst false <;> first | rfl | (rw [hc] at this; exact nomatch this)

theorem isSub_cst {v : Expr} (ht : v.Tidy false) : (v.cst false).isSub = false := by
  cases hr : v.isRow with
  | false =>
    have := isPar_cst ht hr
    cases h : v.cst false with
    | sub q => rw [h] at this; exact this
    | _ => rfl
  | true =>
    cases v with
    | row vs => rfl
    | _ => exact nomatch hr

/-- An operand that is in parentheses or of a sufficient level. -/
theorem at_rank {v : Expr} {cur : Option Nat} {l : Bool} {n : Nat} (ht : v.Tidy false) (hn : n ≤ 8) (h : v.At cur l n) :
    n ≤ (wrapC (needsParen cur v.prec l) (v.cst false)).rank := by
  rcases h with h | h
  · rw [h]; exact hn
  · unfold wrapC
    split
    · exact hn
    · exact Nat.le_trans h.1 (rank_cst ht)

theorem at_none {v : Expr} {l : Bool} {n : Nat} (ht : v.Tidy false) (h : v.At none l n) : n ≤ (v.cst false).rank := by
  rcases h with h | h
  · exact nomatch h
  · exact Nat.le_trans h.1 (rank_cst ht)

theorem at_lam {v : Expr} {cur : Option Nat} {l : Bool} {n : Nat} (ht : v.Tidy false) (h : v.At cur l n) :
    (wrapC (needsParen cur v.prec l) (v.cst false)).isLam = false := by
  rcases h with h | h
  · rw [h]; rfl
  · unfold wrapC
    split
    · rfl
    · exact isLam_cst ht h.2

theorem wrap_plain {b : Bool} {v : Expr} (ht : v.Tidy false) (h : (v.cst false).Plain) : (wrapC b (v.cst false)).Plain := by
  unfold wrapC
  split
  · rw [CE_Plain_paren]; exact ⟨h, isSub_cst ht⟩
  · exact h

/-! ## The nodes -/

theorem litCst_plain {v : Option Scalar} (h : LitOk v) : (litCst v).Plain := by
  cases v with
  | none => exact trivial
  | some v =>
    cases v with
    | bool b =>
      show (CE.bool _).Plain
      rw [CE_Plain_bool]
      cases b
      · exact kwIn (by decide)
      · exact kwIn (by decide)
    | int n => show (CE.num _ _).Plain; rw [CE_Plain_num]; exact .inl rfl
    | float r => exact h.elim
    | dec d => show (CE.num _ _).Plain; rw [CE_Plain_num]; exact .inr (.inl rfl)
    | str s => show (CE.str _).Plain; rw [CE_Plain_str]; exact rfl

theorem binCst_plain {neg : Bool} {op : BinOp} {l r : CE} (hl : l.Plain) (hr : r.Plain) (h1 : leftLevel op ≤ l.rank)
    (h2 : rightLevel op ≤ r.rank) (h3 : l.isLam = false) : (binCst neg op l r).Plain := by
  cases op <;> unfold binCst
  case add | sub => rw [CE_Plain_arith]; exact ⟨hl, hr, .inl ⟨symIn (by decide), h1, h2⟩⟩
  case mul | div | mod => rw [CE_Plain_arith]; exact ⟨hl, hr, .inr ⟨symIn (by decide), h1, h2⟩⟩
  case eq | ne =>
    rw [CE_Plain_cmp]
    refine ⟨?_, hl, h1, hr, h2⟩
    cases neg <;> exact symIn (by decide)
  case gt | ge | lt | le => rw [CE_Plain_cmp]; exact ⟨symIn (by decide), hl, h1, hr, h2⟩
  case and => rw [CE_Plain_and_]; exact ⟨hl, h1, hr, h2⟩
  case or => rw [CE_Plain_or_]; exact ⟨hl, h3, hr, h2⟩
  case distinct => rw [CE_Plain_distinct]; exact ⟨hl, h1, hr, h2⟩

/-- The parse tree of a signed operand: a number takes the minus for itself. -/
theorem signCst_cases (op : UnOp) {v : Expr} (ht : v.Tidy false) (b : Bool) :
    (op = .neg ∧ isNumber v = true ∧ b = false ∧ ∃ t, v.cst false = .num false t ∧ signCst op (wrapC b (v.cst false)) = .num true t) ∨
    ((op = .neg → isNumber v = true → b = true) ∧
      signCst op (wrapC b (v.cst false)) = .sign (symT op.text) (wrapC b (v.cst false))) := by
  cases op with
  | pos => exact .inr ⟨(fun h => nomatch h), by unfold signCst; rfl⟩
  | neg =>
    cases b with
    | true => exact .inr ⟨fun _ _ => rfl, rfl⟩
    | false =>
      cases hn : isNumber v with
      | true =>
        obtain ⟨t, h1, -, -⟩ := isNumber_cst hn
        refine .inl ⟨rfl, rfl, rfl, t, h1, ?_⟩
        rw [h1]; rfl
      | false =>
        refine .inr ⟨(fun _ h => nomatch h), ?_⟩
        show signCst .neg (v.cst false) = .sign _ (v.cst false)
        have key : ∀ c : CE, (∀ t, c ≠ .num false t) → signCst .neg c = .sign (symT (UnOp.text .neg)) c := by
          intro c hc
          unfold signCst
          split
          · exact absurd rfl (hc _)
          · rfl
        refine key _ ?_
        intro t he
        cases v with
        | lit v ty =>
          rw [Expr_cst_lit] at he
          cases v with
          | none => exact nomatch he
          | some v =>
            cases v with
            | int n =>
              have h1 : (decide (n < 0)) = false := by injection he
              have h2 : (decide (0 ≤ n)) = false := hn
              have := of_decide_eq_false h1
              have := of_decide_eq_false h2
              omega
            | dec d =>
              have h1 : d.neg = false := by injection he
              have : (!d.neg) = false := hn
              rw [h1] at this
              exact nomatch this
            | _ => exact nomatch he
        | field n t ty =>
          rw [Expr_cst_field] at he
          unfold fieldCst at he
          split at he <;> exact nomatch he
        | fieldOf | starOf | aliasedStar | interval | normalize | query => exact ht.elim
        | «alias» v n => exact nomatch ht.1
        | star t ty => exact nomatch ht.1
        | un op v =>
          have hp : needsParen (some 8) (Expr.un op v).prec true = false := rfl
          rw [Expr_cst_un] at he
          rw [Expr_Tidy_un] at ht
          cases op with
          | pos => unfold signCst at he; exact nomatch he
          | neg =>
            unfold signCst at he
            split at he
            · exact absurd he (by simp)
            · exact nomatch he
        | bin op l r => rw [Expr_cst_bin] at he; cases op <;> exact nomatch he
        | not v =>
          rw [Expr_cst_not] at he
          split at he
          · next hneg =>
            cases v with
            | bin op l r => rw [Expr_cst_bin] at he; cases op <;> exact nomatch he
            | isNull | like | between | inList | inQuery => exact nomatch he
            | _ => exact nomatch hneg
          · exact nomatch he
        | agg f as ob fl w ign =>
          rw [Expr_cst_agg] at he
          unfold aggCst at he
          split at he <;> exact nomatch he
        | session f => cases f <;> exact nomatch he
        | _ => exact nomatch he

theorem sign_plain {op : UnOp} {v : Expr} (ht : v.Tidy false) (hp : (v.cst false).Plain) (ha : v.At (some 8) true 7)
    (hf : op = .neg → isNumber v = true ∨ needsParen (some 8) v.prec true = true ∨ v.first ≠ .num) :
    (signCst op (wrapC (needsParen (some 8) v.prec true) (v.cst false))).Plain := by
  rcases signCst_cases op ht (needsParen (some 8) v.prec true) with ⟨-, hn, -, t, h1, h2⟩ | ⟨h0, h2⟩
  · obtain ⟨t', h3, h4, -⟩ := isNumber_cst hn
    rw [h2, CE_Plain_num]
    rw [h1] at h3
    cases h3
    exact h4
  · rw [h2, CE_Plain_sign]
    refine ⟨wrap_plain ht hp, at_rank ht (by decide) ha, ?_⟩
    cases op with
    | pos => exact .inl rfl
    | neg =>
      refine .inr ⟨rfl, ?_⟩
      have hs := starts_wrap (b := needsParen (some 8) v.prec true) (starts v false ht)
      refine hs.not_num ?_
      cases hb : needsParen (some 8) v.prec true with
      | true => rw [if_pos rfl]; exact First.noConfusion
      | false =>
        rw [if_neg (by decide)]
        rcases hf rfl with h | h | h
        · rw [h0 rfl h] at hb; exact nomatch hb
        · rw [hb] at h; exact nomatch h
        · exact h


theorem one_word {t : Tok} (h : Word t) : Words [t] := by
  intro u hu
  rw [List.mem_singleton] at hu
  exact hu ▸ h

theorem aggCst_plain {f : Agg} {star : Bool} {label : Option Str} {as : List CE} {ob : List CSort} {fl : Option CE}
    {w : Option CWin} {ign : Bool} (hl : star = true → IfAny FreeWord label) (ha : star = false → CE.Plains as)
    (ho : CSort.Plains ob) (hf : CE.PlainOpt 0 fl) (hw : CWin.PlainOpt w) (hi : ign = true → w.isSome = true) :
    (aggCst f star label as ob fl w ign).Plain := by
  unfold aggCst
  cases star with
  | true =>
    rw [if_pos rfl, CE_Plain_callStar]
    exact ⟨List.cons_ne_nil _ _, one_word (word_of (agg_free f)), word_opt (hl rfl), hf, hw⟩
  | false =>
    rw [if_neg (by decide), CE_Plain_call]
    refine ⟨List.cons_ne_nil _ _, one_word (word_of (agg_free f)), (by intro t h; exact nomatch h), (fun h => nomatch h), ha rfl, ho, hf, ?_, hw⟩
    cases ign with
    | true => exact fun _ => hi rfl
    | false => exact fun h => nomatch h

theorem setCst_plain {vs : List Expr} (ht : Expr.Tidys false vs) (hp : CE.Plains (Expr.csts vs)) (h1 : Expr.OneFits vs) :
    (setCst (Expr.csts vs)).Plain := by
  cases vs with
  | nil => rw [Expr_csts_nil]; exact trivial
  | cons v vs =>
    cases vs with
    | nil =>
      rw [Expr_csts_cons, Expr_csts_nil] at hp ⊢
      rw [CE_Plains_cons] at hp
      show (CSet.expr _).Plain
      rw [CSet_Plain_expr]
      rw [Expr_Tidys_cons] at ht
      exact ⟨hp.1, isSet_cst ht.1 h1⟩
    | cons v' vs =>
      rw [Expr_csts_cons, Expr_csts_cons] at hp ⊢
      show (CSet.paren _).Plain
      rw [CSet_Plain_paren]
      exact hp

theorem isStarArg_eq {as : List Expr} (h : isStarArg as = true) : ∃ t ty, as = [.star t ty] := by
  match as, h with
  | [.star t ty], _ => exact ⟨t, ty, rfl⟩

theorem rowsTok_kind {n : Option Int} {t : Tok} (h : rowsTok n = some t) : t.kind = .int := by
  unfold rowsTok at h
  cases n with
  | none => exact nomatch h
  | some n =>
    dsimp only at h
    split at h
    · cases h; rfl
    · exact nomatch h

theorem distinctTok_plain (d : Bool) : Opt (KwIn [c% "DISTINCT", c% "ALL"]) (distinctTok d) := by
  cases d with
  | false => intro t h; exact nomatch h
  | true => intro t h; cases h; exact kwIn (by decide)

theorem groupQuant_plain (gb : Option GroupBy) : Opt (KwIn [c% "DISTINCT", c% "ALL"]) (groupQuant gb) := by
  cases gb with
  | none => intro t h; exact nomatch h
  | some g =>
    cases g with
    | mk gs d =>
      cases d with
      | false => intro t h; exact nomatch h
      | true => intro t h; cases h; exact kwIn (by decide)

theorem groupQuant_some {gb : Option GroupBy} (h : (groupQuant gb).isSome = true) : gb.isSome = true := by
  cases gb with
  | none => exact nomatch h
  | some g => rfl

theorem nameToks_plain (t : TableRef) : t.nameToks ≠ [] ∧ Words t.nameToks := by
  unfold TableRef.nameToks
  constructor
  · cases t.catalog <;> cases t.schema <;> simp
  · intro x hx
    obtain ⟨n, -, rfl⟩ := List.mem_map.1 hx
    exact word_name n

theorem rel_lvl {r : Rel} (ht : r.Tidy) (h : r.Fits) : r.cst.lvl = relLevel r := by
  cases r with
  | aliased n => cases n; rfl
  | join l r t nat cr =>
    rw [Rel_cst_join]
    unfold joinCst
    split
    · rfl
    · split <;> rfl
  | sample r t p => rfl
  | _ => rfl

theorem lowLevel {r : Rel} : relLevel r = 0 ↔ r.isJoin = true := by
  cases r <;> simp [relLevel, Rel.isJoin]

theorem wrapR_plain {r : Rel} (ht : r.Tidy) (hf : r.Fits) (hp : r.cst.Plain) (h : relLevel r ≠ 1) :
    (wrapR r.isJoin r.cst).Plain ∧ 2 ≤ (wrapR r.isJoin r.cst).lvl := by
  cases hj : r.isJoin with
  | true =>
    show (CR.paren _).Plain ∧ _
    rw [CR_Plain_paren]
    refine ⟨⟨hp, ?_⟩, (by decide : 2 ≤ 3)⟩
    have h0 : r.cst.lvl = 0 := by rw [rel_lvl ht hf]; exact lowLevel.2 hj
    cases h : r.cst with
    | sub q => rw [h] at h0; exact nomatch h0
    | _ => rfl
  | false =>
    refine ⟨hp, ?_⟩
    show 2 ≤ r.cst.lvl
    rw [rel_lvl ht hf]
    have : relLevel r ≠ 0 := fun h => by rw [lowLevel.1 h] at hj; exact nomatch hj
    omega

theorem joinCst_plain {t : JoinType} {nat : Bool} {l r : CR} {c : Option CCrit} (hl : l.Plain) (hr : r.Plain)
    (hc : ∀ x, c = some x → x.Plain) (h : c.isSome = false → 1 ≤ r.lvl) : (joinCst t nat l r c).Plain := by
  unfold joinCst
  cases c with
  | some c => show (CR.join _ _ _ _).Plain; rw [CR_Plain_join]; exact ⟨hl, hr, hc c rfl⟩
  | none =>
    dsimp only
    split
    · rw [CR_Plain_natural]; exact ⟨hl, hr, h rfl⟩
    · rw [CR_Plain_cross]; exact ⟨hl, hr, h rfl⟩

theorem item_plain {e : Expr} {item : Bool} (ht : e.Tidy item) (hf : e.Fits) (hp : (e.cst false).Plain) :
    (itemCst e (e.cst false)).Plain := by
  cases e with
  | «alias» v n =>
    show (CItem.expr _ _ _).Plain
    rw [CItem_Plain_expr]
    exact ⟨hp, (by intro t h; cases h; exact word_name n), (fun h => nomatch h), fun _ t h => by cases h; exact fun h => nomatch h⟩
  | star t ty =>
    show (starItem (truthy t)).Plain
    rw [Expr_Fits_star] at hf
    cases h : truthy t with
    | none => exact trivial
    | some w =>
      show (CItem.allOf _ _).Plain
      rw [CItem_Plain_allOf, CE_Plain_col]
      exact ⟨word_of (hf w h), Nat.le_refl 8, by intro t h; exact nomatch h⟩
  | fieldOf | starOf | aliasedStar | interval | normalize | query => exact ht.elim
  | _ =>
    show (CItem.expr _ _ _).Plain
    rw [CItem_Plain_expr]
    exact ⟨hp, (by intro t h; exact nomatch h), (fun h => nomatch h), fun _ t h => nomatch h⟩

/-- The query of a WITH clause entry. -/
theorem qcst_eq {r : Rel} (h : r.isQuery = true) : ∃ q, r = .query q := by
  cases r with
  | query q => exact ⟨q, rfl⟩
  | _ => exact nomatch h

set_option maxHeartbeats 1600000 in
/-- A query that fits begins with a word: it is no set operation. -/
theorem bare_query : ∀ q : Query, q.Fits → q.cst.isBare = false
  | .mk b off lim ob w, hf => by
    rw [Query_Fits_mk] at hf
    rw [Query_cst_mk]
    match b, hf.1 with
    | .select .., _ => rw [QBody_cst_select]; cases Named.csts w <;> rfl
    | .set _ _ _ _, h => exact h.elim
    | .table _, _ => rw [QBody_cst_table]; cases Named.csts w <;> rfl
    | .values _, _ => rw [QBody_cst_values]; cases Named.csts w <;> rfl

mutual
theorem pl_expr : ∀ (e : Expr) (item : Bool), e.Tidy item → e.Fits → ∀ neg, (e.cst neg).Plain
  | .lit v t, _, ht, _, _ => by rw [Expr_Tidy_lit] at ht; rw [Expr_cst_lit]; exact litCst_plain ht
  | .field n t ty, _, _, _, _ => by
    rw [Expr_cst_field]
    unfold fieldCst
    cases truthy t with
    | none => show (CE.col _).Plain; rw [CE_Plain_col]; exact word_name n
    | some w => show (CE.deref _ _).Plain; rw [CE_Plain_deref, CE_Plain_col]; exact ⟨word_name w, Nat.le_refl 8, word_name n⟩
  | .fieldOf _ _ _, _, ht, _, _ => ht.elim
  | .alias v n, _, ht, hf, _ => by
    rw [Expr_Tidy_alias] at ht
    rw [Expr_Fits_alias] at hf
    rw [Expr_cst_alias]
    exact pl_expr v _ ht.2.2 hf false
  | .star _ _, _, _, _, _ => trivial
  | .starOf _ _, _, ht, _, _ => ht.elim
  | .aliasedStar _ _, _, ht, _, _ => ht.elim
  | .var n, _, _, hf, _ => by rw [Expr_Fits_var] at hf; rw [Expr_cst_var, CE_Plain_col]; exact word_of hf
  | .lam ins b, _, ht, hf, _ => by
    rw [Expr_Tidy_lam] at ht
    rw [Expr_Fits_lam] at hf
    rw [Expr_cst_lam, CE_Plain_lam]
    refine ⟨words_of hf.1, ?_, pl_expr b _ ht.2.2 hf.2.1 false⟩
    intro h
    have h1 := of_decide_eq_false h
    have h2 : ins.length ≠ 0 := by simpa using ht.1
    rw [List.length_map]
    omega
  | .un op v, _, ht, hf, _ => by
    rw [Expr_Tidy_un] at ht
    rw [Expr_Fits_un] at hf
    rw [Expr_cst_un]
    exact sign_plain ht.1 (pl_expr v _ ht.1 hf.1 false) hf.2.1 hf.2.2.2
  | .bin op l r, _, ht, hf, neg => by
    rw [Expr_Tidy_bin] at ht
    rw [Expr_Fits_bin] at hf
    rw [Expr_cst_bin]
    exact binCst_plain (wrap_plain ht.1 (pl_expr l _ ht.1 hf.1 false)) (wrap_plain ht.2 (pl_expr r _ ht.2 hf.2.1 false))
      (at_rank ht.1 (by cases op <;> decide) hf.2.2.1) (at_rank ht.2 (by cases op <;> decide) hf.2.2.2) (at_lam ht.1 hf.2.2.1)
  | .not v, _, ht, hf, _ => by
    rw [Expr_Tidy_not] at ht
    rw [Expr_Fits_not] at hf
    rw [Expr_cst_not]
    cases h : v.negatable with
    | true => rw [if_pos rfl]; exact pl_expr v _ ht hf.1 true
    | false =>
      rw [if_neg (by decide), CE_Plain_not_]
      exact ⟨wrap_plain ht (pl_expr v _ ht hf.1 false), at_rank ht (by decide) (hf.2 h)⟩
  | .isNull v, _, ht, hf, _ => by
    rw [Expr_Tidy_isNull] at ht
    rw [Expr_Fits_isNull] at hf
    rw [Expr_cst_isNull, CE_Plain_isNull]
    exact ⟨wrap_plain ht (pl_expr v _ ht hf.1 false), at_rank ht (by decide) hf.2⟩
  | .between v l u, _, ht, hf, _ => by
    rw [Expr_Tidy_between] at ht
    rw [Expr_Fits_between] at hf
    rw [Expr_cst_between, CE_Plain_between]
    exact ⟨wrap_plain ht.1 (pl_expr v _ ht.1 hf.1 false), at_rank ht.1 (by decide) hf.2.2.2.1,
      wrap_plain ht.2.1 (pl_expr l _ ht.2.1 hf.2.1 false), at_rank ht.2.1 (by decide) hf.2.2.2.2.1,
      wrap_plain ht.2.2 (pl_expr u _ ht.2.2 hf.2.2.1 false), at_rank ht.2.2 (by decide) hf.2.2.2.2.2⟩
  | .array vs, _, ht, hf, _ => by
    rw [Expr_Tidy_array] at ht
    rw [Expr_Fits_array] at hf
    rw [Expr_cst_array, CE_Plain_array]
    exact pl_exprs vs ht hf
  | .inQuery v q, _, ht, hf, _ => by
    rw [Expr_Tidy_inQuery] at ht
    rw [Expr_Fits_inQuery] at hf
    rw [Expr_cst_inQuery, CE_Plain_inSub]
    exact ⟨wrap_plain ht.1 (pl_expr v _ ht.1 hf.1 false), at_rank ht.1 (by decide) hf.2.2, pl_query q ht.2 hf.2.1, bare_query q hf.2.1⟩
  | .inList v es, _, ht, hf, _ => by
    rw [Expr_Tidy_inList] at ht
    rw [Expr_Fits_inList] at hf
    rw [Expr_cst_inList, CE_Plain_inList]
    refine ⟨wrap_plain ht.1 (pl_expr v _ ht.1 hf.1 false), at_rank ht.1 (by decide) hf.2.2.1, ?_, pl_exprs es ht.2 hf.2.1⟩
    cases es with
    | nil => exact absurd rfl hf.2.2.2
    | cons e es => rw [Expr_csts_cons]; exact List.cons_ne_nil _ _
  | .like v p e, _, ht, hf, _ => by
    rw [Expr_Tidy_like] at ht
    rw [Expr_Fits_like] at hf
    rw [Expr_cst_like, CE_Plain_like]
    exact ⟨wrap_plain ht.1 (pl_expr v _ ht.1 hf.1 false), at_rank ht.1 (by decide) hf.2.2.2.1,
      wrap_plain ht.2.1 (pl_expr p _ ht.2.1 hf.2.1 false), at_rank ht.2.1 (by decide) hf.2.2.2.2.1,
      pl_opt e ht.2.2 hf.2.2.1 4 (fun x hx hx' => at_none hx' (hf.2.2.2.2.2 x hx))⟩
  | .typeCtor v t, _, _, hf, _ => by
    rw [Expr_Fits_typeCtor] at hf
    rw [Expr_cst_typeCtor, CE_Plain_typeCtor]
    exact ⟨word_of hf, rfl⟩
  | .row vs, _, ht, hf, _ => by
    rw [Expr_Tidy_row] at ht
    rw [Expr_Fits_row] at hf
    rw [Expr_cst_row, CE_Plain_row]
    refine ⟨?_, pl_exprs vs ht hf.1⟩
    have : ∀ vs : List Expr, (Expr.csts vs).length = vs.length := by
      intro vs
      induction vs with
      | nil => rfl
      | cons v vs ih => rw [Expr_csts_cons, List.length_cons, List.length_cons, ih]
    rw [this]
    exact hf.2
  | .interval _ _ _, _, ht, _, _ => ht.elim
  | .cast tr e t, _, ht, hf, _ => by
    rw [Expr_Tidy_cast] at ht
    rw [Expr_Fits_cast] at hf
    rw [Expr_cst_cast, CE_Plain_cast]
    exact ⟨pl_expr e _ ht hf.1 false, t, hf.2.2, rfl, rfl⟩
  | .subscript v i, _, ht, hf, _ => by
    rw [Expr_Tidy_subscript] at ht
    rw [Expr_Fits_subscript] at hf
    rw [Expr_cst_subscript, CE_Plain_subscript]
    exact ⟨pl_expr v _ ht.1 hf.1 false, at_none ht.1 hf.2.2.1, pl_expr i _ ht.2 hf.2.1 false, at_none ht.2 hf.2.2.2⟩
  | .case v bs e, _, ht, hf, _ => by
    rw [Expr_Tidy_case] at ht
    rw [Expr_Fits_case] at hf
    rw [Expr_cst_case, CE_Plain_case]
    refine ⟨pl_opt v ht.1 hf.1 0 (fun _ _ _ => Nat.zero_le _), ?_, pl_whens bs ht.2.2.1 hf.2.1, pl_opt e ht.2.2.2 hf.2.2 0 (fun _ _ _ => Nat.zero_le _)⟩
    cases bs with
    | nil => exact absurd rfl ht.2.1
    | cons b bs => rw [Expr_cstWhens_cons]; exact List.cons_ne_nil _ _
  | .func f as, _, ht, hf, _ => by
    rw [Expr_Tidy_func] at ht
    rw [Expr_Fits_func] at hf
    rw [Expr_cst_func, CE_Plain_call]
    exact ⟨List.cons_ne_nil _ _, one_word (word_of (fn_free f)), (by intro t h; exact nomatch h), (fun h => nomatch h), pl_exprs as ht hf.1, trivial, trivial, (fun h => nomatch h), trivial⟩
  | .agg f as ob fl w ign, _, ht, hf, _ => by
    rw [Expr_Tidy_agg] at ht
    rw [Expr_Fits_agg] at hf
    rw [Expr_cst_agg]
    refine aggCst_plain ?_ ?_ (pl_ords ob ht.2.2.2.1 hf.2.1) (pl_opt fl ht.2.2.2.2.1 hf.2.2.1 0 (fun _ _ _ => Nat.zero_le _))
      (pl_wopt w ht.2.2.2.2.2 hf.2.2.2.1) ?_
    · intro h
      obtain ⟨t, ty, rfl⟩ := isStarArg_eq h
      have := hf.1
      rw [Expr_Fitss_cons, Expr_Fits_star] at this
      exact this.1
    · intro h
      have h1 := ht.1
      rw [h] at h1
      exact pl_exprs as h1 hf.1
    · intro h
      have := hf.2.2.2.2.2 h
      cases w with
      | none => exact nomatch this
      | some w => rfl
  | .listagg v sep ov ob, _, ht, hf, _ => by
    rw [Expr_Tidy_listagg] at ht
    rw [Expr_Fits_listagg] at hf
    rw [Expr_cst_listagg, CE_Plain_listagg]
    refine ⟨(by intro t h; exact nomatch h), pl_expr v _ ht.1 hf.1 false, ?_, ?_, ?_, pl_ords ob ht.2.2.2 hf.2.1⟩
    · intro s h
      unfold sepCst at h
      split at h
      · cases h; rfl
      · exact nomatch h
    · intro o h
      cases ov with
      | none => exact nomatch h
      | some f => cases h; exact fun s h => by cases h; rfl
    · cases ob with
      | nil => exact absurd rfl hf.2.2
      | cons x xs => rw [Ord_csts_cons]; exact List.cons_ne_nil _ _
  | .curTime f p, _, _, _, _ => by
    rw [Expr_cst_curTime, CE_Plain_dateTime]
    refine .inr ⟨by cases f <;> exact kwIn (by decide), ?_⟩
    intro t h
    unfold precCst at h
    split at h
    · cases h; rfl
    · exact nomatch h
  | .session f, _, _, _, _ => by
    rw [Expr_cst_session]
    cases f
    · show (CE.dateTime _ _).Plain; rw [CE_Plain_dateTime]; exact .inl ⟨rfl, rfl⟩
    all_goals (show (CE.session _).Plain; rw [CE_Plain_session]; exact kwIn (by decide))
  | .normalize _ _, _, ht, _, _ => ht.elim
  | .query _, _, ht, _, _ => ht.elim
theorem pl_opt : ∀ (e : Option Expr), Expr.TidyOpt e → Expr.FitsOpt e → ∀ n, (∀ x, e = some x → x.Tidy false → n ≤ (x.cst false).rank) →
    CE.PlainOpt n (Expr.cstOpt e)
  | none, _, _, _, _ => trivial
  | some e, ht, hf, n, hn => by
    rw [Expr_TidyOpt_some] at ht
    rw [Expr_FitsOpt_some] at hf
    rw [Expr_cstOpt_some, CE_PlainOpt_some]
    exact ⟨pl_expr e _ ht hf false, hn e rfl ht⟩
theorem pl_wopt : ∀ (w : Option Win), Win.TidyOpt w → Win.FitsOpt w → CWin.PlainOpt (Win.cstOpt w)
  | none, _, _ => trivial
  | some w, ht, hf => by
    rw [Win_TidyOpt_some] at ht
    rw [Win_FitsOpt_some] at hf
    rw [Win_cstOpt_some, CWin_PlainOpt_some]
    exact pl_win w ht hf
theorem pl_exprs : ∀ (es : List Expr), Expr.Tidys false es → Expr.Fitss es → CE.Plains (Expr.csts es)
  | [], _, _ => trivial
  | e :: es, ht, hf => by
    rw [Expr_Tidys_cons] at ht
    rw [Expr_Fitss_cons] at hf
    rw [Expr_csts_cons, CE_Plains_cons]
    exact ⟨pl_expr e _ ht.1 hf.1 false, pl_exprs es ht.2 hf.2⟩
theorem pl_items : ∀ (es : List Expr), Expr.Tidys true es → Expr.Fitss es → CItem.Plains (Expr.items es)
  | [], _, _ => trivial
  | e :: es, ht, hf => by
    rw [Expr_Tidys_cons] at ht
    rw [Expr_Fitss_cons] at hf
    rw [Expr_items_cons, CItem_Plains_cons]
    exact ⟨item_plain ht.1 hf.1 (pl_expr e _ ht.1 hf.1 false), pl_items es ht.2 hf.2⟩
theorem pl_whens : ∀ (bs : List (Expr × Expr)), Expr.TidyWhens bs → Expr.FitsWhens bs → CWhen.Plains (Expr.cstWhens bs)
  | [], _, _ => trivial
  | (c, v) :: bs, ht, hf => by
    rw [Expr_TidyWhens_cons] at ht
    rw [Expr_FitsWhens_cons] at hf
    rw [Expr_cstWhens_cons, CWhen_Plains_cons]
    exact ⟨pl_expr c _ ht.1 hf.1 false, pl_expr v _ ht.2.1 hf.2.1 false, pl_whens bs ht.2.2 hf.2.2⟩
theorem pl_ords : ∀ (os : List Ord), Ord.Tidys os → Ord.Fitss os → CSort.Plains (Ord.csts os)
  | [], _, _ => trivial
  | .mk v d nf :: os, ht, hf => by
    rw [Ord_Tidys_cons, Ord_Tidy_mk] at ht
    rw [Ord_Fitss_cons, Ord_Fits_mk] at hf
    rw [Ord_csts_cons, Ord_cst_mk, CSort_Plains_cons]
    refine ⟨pl_expr v _ ht.1 hf.1 false, ?_, ?_, pl_ords os ht.2 hf.2⟩
    · cases d with
      | false => intro t h; exact nomatch h
      | true => intro t h; cases h; exact kwIn (by decide)
    · cases nf with
      | false => intro t h; exact nomatch h
      | true => intro t h; cases h; exact kwIn (by decide)
theorem pl_bound : ∀ (b : Bound), b.Tidy → b.Fits → b.cst.Plain
  | .bounded t e, ht, hf => by
    rw [Bound_Tidy_bounded] at ht
    rw [Bound_Fits_bounded] at hf
    rw [Bound_cst_bounded, CBound_Plain_bounded]
    exact ⟨pl_expr e _ ht hf false, by cases t <;> exact kwIn (by decide)⟩
  | .unbounded t, _, _ => by
    rw [Bound_cst_unbounded, CBound_Plain_unbounded]
    cases t <;> exact kwIn (by decide)
  | .current, _, _ => trivial
theorem pl_win : ∀ (w : Win), w.Tidy → w.Fits → w.cst.Plain
  | .mk p ob ps f st en, ht, hf => by
    rw [Win_Tidy_mk] at ht
    rw [Win_Fits_mk] at hf
    rw [Win_cst_mk, CWin_Plain_spec, CFrame_Plain_between]
    exact ⟨word_opt hf.1, pl_exprs ps ht.2.2.1 hf.2.2.1, pl_ords ob ht.2.1 hf.2.1, by cases f <;> exact kwIn (by decide),
      pl_bound st ht.2.2.2.1 hf.2.2.2.1, pl_bound en ht.2.2.2.2 hf.2.2.2.2⟩
theorem pl_grp : ∀ (g : Grp), g.Tidy → g.Fits → g.cst.Plain
  | .set vs, ht, hf => by
    rw [Grp_Tidy_set] at ht
    rw [Grp_Fits_set] at hf
    rw [Grp_cst_set, CGrp_Plain_single]
    exact setCst_plain ht (pl_exprs vs ht hf.1) hf.2
  | .sets gs, ht, hf => by
    rw [Grp_Tidy_sets] at ht
    rw [Grp_Fits_sets] at hf
    rw [Grp_cst_sets, CGrp_Plain_sets]
    refine ⟨?_, pl_lists gs ht hf.2⟩
    cases gs with
    | nil => exact absurd rfl hf.1
    | cons g gs => rw [Expr_cstLists_cons]; exact List.cons_ne_nil _ _
  | .cube vs, ht, hf => by
    rw [Grp_Tidy_cube] at ht
    rw [Grp_Fits_cube] at hf
    rw [Grp_cst_cube, CGrp_Plain_cube]
    exact pl_exprs vs ht hf
  | .rollup vs, ht, hf => by
    rw [Grp_Tidy_rollup] at ht
    rw [Grp_Fits_rollup] at hf
    rw [Grp_cst_rollup, CGrp_Plain_rollup]
    exact pl_exprs vs ht hf
theorem pl_lists : ∀ (gs : List (List Expr)), Expr.TidyLists gs → Expr.FitsLists gs → CSet.Plains (Expr.cstLists gs)
  | [], _, _ => trivial
  | vs :: gs, ht, hf => by
    rw [Expr_TidyLists_cons] at ht
    rw [Expr_FitsLists_cons] at hf
    rw [Expr_cstLists_cons, CSet_Plains_cons]
    exact ⟨setCst_plain ht.1 (pl_exprs vs ht.1 hf.1) hf.2.1, pl_lists gs ht.2 hf.2.2⟩
theorem pl_grps : ∀ (gs : List Grp), Grp.Tidys gs → Grp.Fitss gs → CGrp.Plains (Grp.csts gs)
  | [], _, _ => trivial
  | g :: gs, ht, hf => by
    rw [Grp_Tidys_cons] at ht
    rw [Grp_Fitss_cons] at hf
    rw [Grp_csts_cons, CGrp_Plains_cons]
    exact ⟨pl_grp g ht.1 hf.1, pl_grps gs ht.2 hf.2⟩
theorem pl_gopt : ∀ (g : Option GroupBy), GroupBy.TidyOpt g → GroupBy.FitsOpt g → CGrp.Plains (GroupBy.cstOpt g) ∧ (g.isSome = true → GroupBy.cstOpt g ≠ [])
  | none, _, _ => ⟨trivial, fun h => nomatch h⟩
  | some (.mk gs d), ht, hf => by
    rw [GroupBy_TidyOpt_some, GroupBy_Tidy_mk] at ht
    rw [GroupBy_FitsOpt_some, GroupBy_Fits_mk] at hf
    rw [GroupBy_cstOpt_some, GroupBy_cst_mk]
    refine ⟨pl_grps gs ht.2 hf, fun _ => ?_⟩
    cases gs with
    | nil => exact absurd rfl ht.1
    | cons g gs => rw [Grp_csts_cons]; exact List.cons_ne_nil _ _
theorem pl_query : ∀ (q : Query), q.Tidy → q.Fits → q.cst.Plain
  | .mk b off lim ob w, ht, hf => by
    rw [Query_Tidy_mk] at ht
    rw [Query_Fits_mk] at hf
    rw [Query_cst_mk]
    have hb := pl_body b ht.1 hf.1
    unfold queryCst
    rw [if_neg (by rw [hb.2]; decide), CQ_Plain_mk, CQN_Plain_mk]
    refine ⟨(fun h => nomatch h), pl_withs w ht.2.2.2.2 hf.2.2, hb.1, pl_ords ob ht.2.2.2.1 hf.2.1, ?_, ?_⟩
    · intro p h
      cases ho : rowsTok off with
      | none => rw [ho] at h; exact nomatch h
      | some t => rw [ho] at h; cases h; exact ⟨.inl (rowsTok_kind ho), (by exact nofun)⟩
    · cases hl : rowsTok lim with
      | none => exact trivial
      | some t => exact .inl (.inl (rowsTok_kind hl))
theorem pl_body : ∀ (b : QBody), b.Tidy → b.Fits → b.cst.Plain ∧ b.isSet = false
  | .select items fr wh gb hv d wins, ht, hf => by
    rw [QBody_Tidy_select] at ht
    rw [QBody_Fits_select] at hf
    rw [QBody_cst_select, CQT_Plain_spec]
    have hg := pl_gopt gb ht.2.2.2.2.1 hf.2.2.2.1
    refine ⟨⟨distinctTok_plain d, ?_, pl_items items ht.2.1 hf.1, pl_ropt fr ht.2.2.1 hf.2.1,
      pl_opt wh ht.2.2.2.1 hf.2.2.1 0 (fun _ _ _ => Nat.zero_le _), groupQuant_plain gb,
      (fun h => hg.2 (groupQuant_some h)), hg.1,
      pl_opt hv ht.2.2.2.2.2.1 hf.2.2.2.2.1 0 (fun _ _ _ => Nat.zero_le _), pl_wnamed wins ht.2.2.2.2.2.2 hf.2.2.2.2.2.1⟩, rfl⟩
    cases items with
    | nil => exact absurd rfl ht.1
    | cons e es => rw [Expr_items_cons]; exact List.cons_ne_nil _ _
  | .set _ _ _ _, _, hf => hf.elim
  | .table t, _, _ => by
    rw [QBody_cst_table, CQT_Plain_table]
    exact ⟨nameToks_plain t, rfl⟩
  | .values es, ht, hf => by
    rw [QBody_Tidy_values] at ht
    rw [QBody_Fits_values] at hf
    rw [QBody_cst_values, CQT_Plain_values]
    refine ⟨⟨?_, pl_exprs es ht.2 hf⟩, rfl⟩
    cases es with
    | nil => exact absurd rfl ht.1
    | cons e es => rw [Expr_csts_cons]; exact List.cons_ne_nil _ _
theorem pl_wnamed : ∀ (ws : List (Str × Win)), Win.TidyNamed ws → Win.FitsNamed ws → CWinDef.Plains (Win.cstNamed ws)
  | [], _, _ => trivial
  | (n, w) :: ws, ht, hf => by
    rw [Win_TidyNamed_cons] at ht
    rw [Win_FitsNamed_cons] at hf
    rw [Win_cstNamed_cons, CWinDef_Plains_cons]
    refine ⟨word_of hf.1, ?_, pl_win w ht.2.1 hf.2.1, pl_wnamed ws ht.2.2 hf.2.2⟩
    cases w
    exact trivial
theorem pl_named : ∀ (n : Named), n.Tidy → n.Fits → n.cst.Plain
  | .mk r a cols, ht, hf => by
    rw [Named_Tidy_mk] at ht
    rw [Named_Fits_mk] at hf
    rw [Named_cst_mk, CR_Plain_alias]
    exact ⟨pl_rel r ht.1 hf.1, by rw [rel_lvl ht.1 hf.1]; exact hf.2.1, word_name a, words_of hf.2.2⟩
theorem pl_withs : ∀ (ns : List Named), Named.Tidys ns → Named.Fitss ns → CNamed.Plains (Named.csts ns)
  | [], _, _ => trivial
  | .mk (.query q) a cols :: ns, ht, hf => by
    rw [Named_Tidys_cons, Named_TidyWith_mk, Rel_Tidy_query] at ht
    rw [Named_Fitss_cons, Named_FitsWith_mk, Rel_Fits_query] at hf
    rw [Named_csts_cons, Named_cstWith_mk, CNamed_Plains_cons, Rel_qcst_query]
    exact ⟨word_name a, (by intro t h; exact nomatch h), pl_query q ht.1.1 hf.1, pl_withs ns ht.2 hf.2⟩
  | .mk (.table _) _ _ :: _, ht, _ => by rw [Named_Tidys_cons, Named_TidyWith_mk] at ht; exact nomatch ht.1.2.1
  | .mk (.aliased _) _ _ :: _, ht, _ => by rw [Named_Tidys_cons, Named_TidyWith_mk] at ht; exact nomatch ht.1.2.1
  | .mk (.join _ _ _ _ _) _ _ :: _, ht, _ => by rw [Named_Tidys_cons, Named_TidyWith_mk] at ht; exact nomatch ht.1.2.1
  | .mk (.unnest _ _) _ _ :: _, ht, _ => by rw [Named_Tidys_cons, Named_TidyWith_mk] at ht; exact nomatch ht.1.2.1
  | .mk (.lateral _) _ _ :: _, ht, _ => by rw [Named_Tidys_cons, Named_TidyWith_mk] at ht; exact nomatch ht.1.2.1
  | .mk (.sample _ _ _) _ _ :: _, ht, _ => by rw [Named_Tidys_cons, Named_TidyWith_mk] at ht; exact nomatch ht.1.2.1
theorem pl_ropt : ∀ (r : Option Rel), Rel.TidyOpt r → Rel.FitsOpt r → CR.Plains (Rel.cstOpt r)
  | none, _, _ => trivial
  | some r, ht, hf => by
    rw [Rel_TidyOpt_some] at ht
    rw [Rel_FitsOpt_some] at hf
    rw [Rel_cstOpt_some, CR_Plains_cons]
    exact ⟨pl_rel r ht hf, trivial⟩
theorem pl_rel : ∀ (r : Rel), r.Tidy → r.Fits → r.cst.Plain
  | .table t, _, _ => by rw [Rel_cst_table, CR_Plain_table]; exact nameToks_plain t
  | .query q, ht, hf => by
    rw [Rel_Tidy_query] at ht
    rw [Rel_Fits_query] at hf
    rw [Rel_cst_query, CR_Plain_sub]
    exact pl_query q ht hf
  | .aliased n, ht, hf => by
    rw [Rel_Tidy_aliased] at ht
    rw [Rel_Fits_aliased] at hf
    rw [Rel_cst_aliased]
    exact pl_named n ht hf
  | .join l r t nat cr, ht, hf => by
    rw [Rel_Tidy_join] at ht
    rw [Rel_Fits_join] at hf
    rw [Rel_cst_join]
    refine joinCst_plain (pl_rel l ht.1 hf.1) (pl_rel r ht.2.1 hf.2.1) (pl_copt cr ht.2.2.2 hf.2.2.1) ?_
    intro h
    rw [rel_lvl ht.2.1 hf.2.1]
    refine hf.2.2.2 ?_
    cases cr with
    | none => rfl
    | some c => exact nomatch h
  | .unnest as ord, ht, hf => by
    rw [Rel_Tidy_unnest] at ht
    rw [Rel_Fits_unnest] at hf
    rw [Rel_cst_unnest, CR_Plain_unnest]
    refine ⟨?_, pl_exprs as ht.1 hf.1⟩
    cases as with
    | nil => exact absurd rfl hf.2
    | cons e es => rw [Expr_csts_cons]; exact List.cons_ne_nil _ _
  | .lateral q, ht, hf => by
    rw [Rel_Tidy_lateral] at ht
    rw [Rel_Fits_lateral] at hf
    rw [Rel_cst_lateral, CR_Plain_lateral]
    exact pl_query q ht hf
  | .sample r t p, ht, hf => by
    rw [Rel_Tidy_sample] at ht
    rw [Rel_Fits_sample] at hf
    rw [Rel_cst_sample, CR_Plain_sample]
    have h := wrapR_plain ht.1 hf.1 (pl_rel r ht.1 hf.1) hf.2.2
    exact ⟨h.1, h.2, by cases t <;> exact kwIn (by decide), pl_expr p _ ht.2 hf.2.1 false⟩
theorem pl_copt : ∀ (c : Option Crit), Crit.TidyOpt c → Crit.FitsOpt c → ∀ x, Crit.cstOpt c = some x → x.Plain
  | none, _, _, _, h => nomatch h
  | some (.on e), ht, hf, _, h => by
    rw [Crit_TidyOpt_some, Crit_Tidy_on] at ht
    rw [Crit_FitsOpt_some, Crit_Fits_on] at hf
    cases h
    rw [Crit_cst_on, CCrit_Plain_on]
    exact pl_expr e _ ht hf false
  | some (.using cols), ht, hf, _, h => by
    rw [Crit_TidyOpt_some, Crit_Tidy_using] at ht
    rw [Crit_FitsOpt_some, Crit_Fits_using] at hf
    cases h
    rw [Crit_cst_using, CCrit_Plain_using]
    exact ⟨by simpa using ht.1, words_of hf⟩
end

end Treeno
