import Verif.Lemmas.CstPlain
import Verif.Lemmas.ConvEqs
import Verif.Lemmas.RereadEqs
import Verif.Lemmas.LamBody
import Verif.Lemmas.Conversions
/-!
# Converting the parts of the parse tree of a printed text
-/
namespace Treeno
open Spec

/-! ## Names and strings -/

theorem ident_word (w : Str) : identText (wordOf w) = .ok w := by
  unfold wordOf identText
  cases isKeyword w <;> rfl
theorem ident_name {n : Str} (h : NameOk n) : identText (nameTok n) = .ok n := by
  show Except.ok _ = _
  exact congrArg _ (stripC_quoted '"' n h.1)
theorem string_tok {s : Str} (h : StrOk s) : stringText (strTok s) = .ok s := by
  show Except.ok _ = _
  exact congrArg _ (stripC_quoted '\'' s h.1)
theorem idents_words : ∀ ws : List Str, identTexts (ws.map wordOf) = .ok ws
  | [] => rfl
  | w :: ws => by
    show (do let s ← identText (wordOf w); let r ← identTexts (ws.map wordOf); Except.ok (s :: r)) = _
    rw [ident_word, idents_words ws]; rfl
theorem idents_names : ∀ ns : List Str, (∀ n ∈ ns, NameOk n) → identTexts (ns.map nameTok) = .ok ns
  | [], _ => rfl
  | n :: ns, h => by
    show (do let s ← identText (nameTok n); let r ← identTexts (ns.map nameTok); Except.ok (s :: r)) = _
    rw [ident_name (h n (by simp)), idents_names ns fun m hm => h m (List.mem_cons_of_mem _ hm)]; rfl
theorem identOpt_words (o : Option Str) : identOpt (o.map wordOf) = .ok o := by
  cases o with
  | none => rfl
  | some w =>
    show (do let s ← identText (wordOf w); Except.ok (some s)) = _
    rw [ident_word]; rfl

/-- One step of a computation that does not fail. -/
theorem ebind {α β : Type} {x : Except Err α} {f : α → Except Err β} {a : α} {y : Except Err β} (h : x = .ok a)
    (h2 : f a = y) : (x >>= f) = y := by rw [h]; exact h2

theorem build_ok {e : Expr} {t : Ty} (h : e.check = .ok t) : e.build = .ok e := by
  unfold Expr.build
  rw [h]; rfl

theorem wrap_conv (b : Bool) (c : CE) : (wrapC b c).conv = c.conv := by
  unfold wrapC
  split
  · rw [CE_conv_paren]
  · rfl

/-! ## Numbers -/

theorem takeWhile_digits {i r : Str} (h : ∀ c ∈ i, isDigit c = true) :
    (i ++ '.' :: r).takeWhile isDigit = i ∧ (i ++ '.' :: r).dropWhile isDigit = '.' :: r := by
  induction i with
  | nil => exact ⟨rfl, rfl⟩
  | cons c i ih =>
    have hc := h c (by simp)
    obtain ⟨a, b⟩ := ih fun x hx => h x (List.mem_cons_of_mem _ hx)
    rw [List.cons_append, List.takeWhile_cons, List.dropWhile_cons, if_pos hc, if_pos hc, a, b]
    exact ⟨rfl, rfl⟩

theorem decOfPlain_digits {c : Char} {s f : Str} (hc : isDigit c = true) (hi : ∀ x ∈ c :: s, isDigit x = true)
    (hf : ∀ x ∈ f, isDigit x = true) :
    decOfPlain (c :: s ++ '.' :: f) = some ⟨false, digitsVal (c :: s ++ f), -(f.length : Int)⟩ := by
  have hc1 : c ≠ '-' := by rintro rfl; exact absurd hc (by decide)
  have hc2 : c ≠ '+' := by rintro rfl; exact absurd hc (by decide)
  obtain ⟨a, b⟩ := takeWhile_digits (r := f) hi
  rw [List.cons_append] at a b ⊢
  unfold decOfPlain
  split
  next neg u h =>
  split at h
  · next h' => exact absurd (List.cons.inj h').1 hc1
  · next h' => exact absurd (List.cons.inj h').1 hc2
  · cases h
    rw [a, b]
    dsimp only
    have hall : (f.all isDigit && !((c :: s).isEmpty && f.isEmpty)) = true := by
      rw [Bool.and_eq_true, List.all_eq_true]
      exact ⟨hf, rfl⟩
    exact if_pos hall

theorem decOfPlain_abs {d : Dec} (h : DecOk d) : decOfPlain d.absStr = some { d with neg := false } := by
  obtain ⟨i, f, e, hi, hf, hl, hv, -⟩ := absStr_eq h
  obtain ⟨c, s, rfl, hc⟩ := digit_head hi
  rw [e, decOfPlain_digits hc hi.2 hf, hv, hl]
  have h1 := h.1
  have : (-(((-d.exp).toNat : Nat) : Int)) = d.exp := by omega
  rw [this]

theorem idxOf_dot {i f : Str} (h : ∀ c ∈ i, isDigit c = true) : (i ++ '.' :: f).idxOf '.' = i.length := by
  induction i with
  | nil => rfl
  | cons c i ih =>
    have hc : (c == '.') = false := by
      have h1 := h c (by simp)
      refine beq_eq_false_iff_ne.2 ?_
      rintro rfl
      exact absurd h1 (by decide)
    rw [List.cons_append, List.idxOf_cons, hc, ih fun x hx => h x (List.mem_cons_of_mem _ hx)]
    rfl

theorem infer_abs {d : Dec} (h : DecOk d) (hd : decDigits d ≤ 38) :
    inferDecimal { d with neg := false } = .ok (.decimal (decDigits d) (-d.exp)) := by
  obtain ⟨i, f, e, hi, hf, hl, hv, hn⟩ := absStr_eq h
  show inferDecimalText d.absStr = _
  unfold inferDecimalText
  have h0 : ∀ w : Str, (∀ c ∈ w, isDigit c = true) → w.count '.' = 0 := by
    intro w hw
    refine List.count_eq_zero.2 fun hm => ?_
    exact absurd (hw _ hm) (by decide)
  rw [e, if_neg (by simp), if_pos (by rw [List.count_append, List.count_cons, h0 i hi.2, h0 f hf]; rfl), idxOf_dot hi.2, mkDecimal_eq]
  have h1 := h.1
  have hlen : (((i ++ '.' :: f).length : Nat) : Int) - 1 = decDigits d := by
    unfold decDigits
    rw [← hn, List.length_append, List.length_cons]
    omega
  have hlen2 : (((i ++ '.' :: f).length : Nat) : Int) - ((i.length : Nat) : Int) - 1 = -d.exp := by
    rw [List.length_append, List.length_cons, hl]
    omega
  rw [hlen, hlen2, if_pos]
  refine ⟨?_, hd⟩
  unfold decDigits
  omega

theorem inferIntegral_eq (n : Int) : inferIntegral n = litType (some (.int n)) := by
  unfold inferIntegral litType
  by_cases h : -2147483648 ≤ n ∧ n ≤ 2147483647
  · rw [if_pos (by omega)]; exact (if_pos (by omega)).symm
  · rw [if_neg (by omega)]; exact (if_neg (by omega)).symm

theorem litType_ne {v : Scalar} : litType (some v) ≠ .unknown := by
  cases v <;> simp only [litType, Ty.unknown, ne_eq, reduceCtorEq, not_false_eq_true]
  all_goals (first | (split <;> simp) | simp)

theorem lit_check (v : Option Scalar) : (litOf v).check = .ok (litType v) := by
  unfold litOf
  rw [Expr_check_lit]
  cases v with
  | none => rfl
  | some v => exact if_neg fun h => litType_ne h.2

theorem negate_eq {d : Dec} (h : Negatable d) : Dec.negate { d with neg := false } = { d with neg := true } := by
  unfold Dec.negate roundCoeff
  rw [if_pos h.2]
  simp [h.1]

theorem num_int (m : Bool) (n : Nat) :
    numLit m ⟨.int, natStr n⟩ = .ok (litOf (some (.int (if m then -(n : Int) else n)))) := by
  show (fun v : Int => Expr.build (.lit (some (.int v)) (inferIntegral v))) _ = _
  rw [natStr_val]
  dsimp only
  rw [inferIntegral_eq]
  exact build_ok (lit_check _)

theorem num_dec {m : Bool} {d : Dec} (h : DecOk d) (hd : decDigits d ≤ 38) (hm : m = true → Negatable d) :
    numLit m ⟨.dec, d.absStr⟩ = .ok (litOf (some (.dec { d with neg := m }))) := by
  unfold numLit
  dsimp only
  rw [decOfPlain_abs h]
  dsimp only
  refine ebind (infer_abs h hd) ?_
  have : (if m = true then Dec.negate { d with neg := false } else { d with neg := false }) = { d with neg := m } := by
    cases m with
    | false => rfl
    | true => rw [if_pos rfl]; exact negate_eq (hm rfl)
  rw [this]
  exact build_ok (lit_check (some (.dec { d with neg := m })))

theorem litCst_conv {v : Option Scalar} (h : LitOk v) (hf : LitFits v) : (litCst v).conv = .ok (litOf v) := by
  cases v with
  | none => rfl
  | some v =>
    cases v with
    | bool b => cases b <;> rfl
    | int n =>
      show (CE.num _ _).conv = _
      rw [CE_conv_num, num_int]
      have : (if decide (n < 0) = true then -((n.natAbs : Nat) : Int) else ((n.natAbs : Nat) : Int)) = n := by
        by_cases hn : n < 0
        · rw [if_pos (by simpa using hn)]; omega
        · rw [if_neg (by simpa using hn)]; omega
      rw [this]
    | float r => exact h.elim
    | dec d =>
      show (CE.num _ _).conv = _
      rw [CE_conv_num]
      exact num_dec h hf.1 hf.2
    | str s =>
      show (CE.str _).conv = _
      rw [CE_conv_str]
      refine ebind (string_tok h) (ebind (mkVarchar_eq _) ?_)
      exact build_ok (lit_check (some (.str s)))

/-! ## Operators -/

/-- What is read when `e` is printed, or `NOT e` for `neg`. -/
def rr (neg : Bool) (e : Expr) : Expr := if neg then notOf e e.reread else e.reread

/-- An item without its alias. -/
def unalias : Expr → Expr
  | .alias v _ => v
  | e => e

theorem unalias_tidy {e : Expr} (h : e.Tidy false) : unalias e = e ∧ e.isStar = false := by
  cases e
  case «alias» v n => rw [Expr_Tidy_alias] at h; exact nomatch h.1
  case star t ty => rw [Expr_Tidy_star] at h; exact nomatch h.1
  case starOf => rw [Expr_Tidy_starOf] at h; exact h.elim
  all_goals exact ⟨rfl, rfl⟩

theorem kid {v : Expr} {t : Ty} (ht : v.Tidy false) (hc : v.reread.check = .ok t)
    (ih : v.isStar = false → ∀ t, (rr false (unalias v)).check = .ok t → (v.cst false).conv = .ok (rr false (unalias v))) :
    (v.cst false).conv = .ok v.reread := by
  obtain ⟨h1, h2⟩ := unalias_tidy ht
  rw [h1] at ih
  exact ih h2 t hc

theorem wkid {v : Expr} {t : Ty} (b : Bool) (ht : v.Tidy false) (hc : v.reread.check = .ok t)
    (ih : v.isStar = false → ∀ t, (rr false (unalias v)).check = .ok t → (v.cst false).conv = .ok (rr false (unalias v))) :
    (wrapC b (v.cst false)).conv = .ok v.reread := by
  rw [wrap_conv]; exact kid ht hc ih

/-- A predicate, negated or not. -/
def pred (neg : Bool) (e : Expr) : Expr := if neg then .not e else e

theorem pred_check {neg : Bool} {e : Expr} {t : Ty} (h : (pred neg e).check = .ok t) : ∃ u, e.check = .ok u := by
  cases neg with
  | false => exact ⟨t, h⟩
  | true =>
    change (Expr.not e).check = _ at h
    rw [Expr_check_not] at h
    obtain ⟨a, ha, -⟩ := bind_ok h
    exact ⟨a, ha⟩

theorem pred_conv {neg : Bool} {e : Expr} {t : Ty} (h : (pred neg e).check = .ok t) : negIf neg e = .ok (pred neg e) := by
  cases neg
  · exact build_ok h
  · exact build_ok h

theorem bin_check {op : BinOp} {a b : Expr} {t : Ty} (h : (Expr.bin op a b).check = .ok t) :
    ∃ x y, a.check = .ok x ∧ b.check = .ok y := by
  rw [Expr_check_bin] at h
  obtain ⟨x, hx, h⟩ := bind_ok h
  obtain ⟨y, hy, -⟩ := bind_ok h
  exact ⟨x, y, hx, hy⟩

theorem rr_bin_check {neg : Bool} {op : BinOp} {l r : Expr} {t : Ty} (h : (rr neg (.bin op l r)).check = .ok t) :
    ∃ x y, l.reread.check = .ok x ∧ r.reread.check = .ok y := by
  cases neg with
  | false => exact bin_check h
  | true =>
    cases op
    case eq => exact bin_check (op := .ne) h
    case ne => exact bin_check (op := .eq) h
    all_goals
      obtain ⟨u, hu⟩ := pred_check (neg := true) h
      exact bin_check hu

theorem binCst_conv {neg : Bool} {op : BinOp} {l r : Expr} {cl cr : CE} {t : Ty} (hl : cl.conv = .ok l.reread)
    (hr : cr.conv = .ok r.reread) (hn : neg = true → (Expr.bin op l r).negatable = true)
    (h : (rr neg (.bin op l r)).check = .ok t) : (binCst neg op cl cr).conv = .ok (rr neg (.bin op l r)) := by
  have h2 := h
  cases neg with
  | false =>
    have h3 : (Expr.bin op l.reread r.reread).check = .ok t := h
    show _ = Except.ok (Expr.bin op l.reread r.reread)
    cases op
    case or => exact (CE_conv_or_ ..).trans (ebind hl (ebind hr (build_ok h3)))
    case and => exact (CE_conv_and_ ..).trans (ebind hl (ebind hr (build_ok h3)))
    case distinct => exact (CE_conv_distinct ..).trans (ebind hl (ebind hr (build_ok h3)))
    case eq | ne | gt | ge | lt | le => exact (CE_conv_cmp ..).trans (ebind hl (ebind hr (ebind rfl (build_ok h3))))
    all_goals exact (CE_conv_arith ..).trans (ebind hl (ebind hr (ebind rfl (build_ok h3))))
  | true =>
    cases op
    case eq => exact (CE_conv_cmp ..).trans (ebind hl (ebind hr (ebind rfl (build_ok h))))
    case ne => exact (CE_conv_cmp ..).trans (ebind hl (ebind hr (ebind rfl (build_ok h))))
    case distinct => exact (CE_conv_distinct ..).trans (ebind hl (ebind hr (pred_conv (neg := true) h)))
    all_goals exact nomatch hn rfl

theorem signed_eq {op : UnOp} {v : Expr} (h1 : op = .neg → isNumber v = true → needsParen (some 8) v.prec true = true)
    (h2 : op = .neg → needsParen (some 8) v.prec true = true ∨ v.first ≠ .dash) :
    signedOf op v.reread = .un op v.reread := by
  cases op with
  | pos => rfl
  | neg =>
    replace h1 := h1 rfl
    replace h2 := h2 rfl
    cases v
    case lit x ty =>
      have hp : ∀ x : Option Scalar, needsParen (some 8) (Expr.lit x ty).prec true = false := fun _ => rfl
      rw [hp] at h1 h2
      rw [Expr_reread_lit]
      cases x with
      | none => rfl
      | some x =>
        cases x with
        | int n =>
          exfalso
          by_cases hn : n < 0
          · refine h2.elim (fun h => nomatch h) fun h => h ?_
            show litFirst (some (.int n)) = _
            exact if_pos hn
          · exact nomatch h1 (show decide (0 ≤ n) = true by simp; omega)
        | dec d =>
          exfalso
          cases hd : d.neg with
          | true =>
            refine h2.elim (fun h => nomatch h) fun h => h ?_
            show litFirst (some (.dec d)) = _
            exact if_pos hd
          | false => exact nomatch h1 (show (!d.neg) = true by rw [hd]; rfl)
        | bool | float | str => rfl
    case un op' w =>
      rw [Expr_reread_un]
      cases op' with
      | pos => rfl
      | neg => exact (h2.elim (fun h => nomatch h) fun h => h rfl).elim
    case not w =>
      rw [Expr_reread_not]
      unfold notOf
      split
      · next h =>
        cases w
        case bin op a b =>
          rw [Expr_reread_bin]
          cases op
          case eq | ne => rfl
          all_goals exact nomatch h
        all_goals exact nomatch h
      · rfl
    all_goals rfl

theorem not_equality {v : Expr} (h : v.negatable = false) : isEquality v = false := by
  cases v
  case bin op a b =>
    cases op
    case eq | ne => exact nomatch h
    all_goals rfl
  all_goals rfl

/-- A number behind a minus sign. -/
theorem neg_number {v : Expr} {c : Tok} (ht : v.Tidy false) (hf : v.Fits) (hs : SignFits .neg v) (hn : isNumber v = true)
    (hc : v.cst false = .num false c) : numLit true c = .ok (signedOf .neg v.reread) := by
  cases v
  case lit x ty =>
    rw [Expr_Tidy_lit] at ht
    rw [Expr_Fits_lit] at hf
    rw [Expr_cst_lit] at hc
    rw [Expr_reread_lit]
    cases x with
    | none => exact nomatch hn
    | some x =>
      cases x with
      | int n =>
        have h0 : 0 ≤ n := of_decide_eq_true hn
        cases (CE.num.inj hc).2
        rw [num_int]
        show _ = Except.ok (litOf (some (.int (-n))))
        rw [if_pos rfl]
        have : ((n.natAbs : Nat) : Int) = n := by omega
        rw [this]
      | dec d =>
        have h0 : d.neg = false := by
          have : (!d.neg) = true := hn
          simpa using this
        cases (CE.num.inj hc).2
        rw [num_dec ht hf.1 fun _ => hs]
        show _ = Except.ok (litOf (some (.dec { d with neg := !d.neg })))
        rw [h0]; rfl
      | bool | float | str => exact nomatch hn
  all_goals exact nomatch hn

/-! ## Functions -/

theorem fn_named (f : Fn) : Fn.ofName? (upper f.name) = some f := by cases f <;> decide +kernel
theorem agg_named (f : Agg) : Fn.ofName? (upper f.name) = none ∧ Agg.ofName? (upper f.name) = some f := by
  cases f <;> decide +kernel

theorem call_fn {f : Fn} {as : List Expr} {t : Ty} (hf : FnFits f as.length) (h : (Expr.func f as).check = .ok t) :
    callOf [f.name] as [] none none none = .ok (.func f as) := by
  unfold callOf
  dsimp only
  rw [fn_named]
  dsimp only
  rw [if_neg (by simp), if_pos]
  · exact build_ok h
  · unfold fnArgsOk
    by_cases hu : f = .fromUnixtime
    · rcases hf hu with h | h <;> simp [h]
    · simp [hu]

theorem agg_order {f : Agg} {as : List Expr} (h : AggFits f as.length) : aggArgOrder f as = as := by
  unfold aggArgOrder
  split
  · exact absurd rfl (h rfl)
  · rfl

theorem call_agg {f : Agg} {as : List Expr} {ob : List Ord} {fl : Option Expr} {w : Option Win} {ign : Bool} {t : Ty}
    (hf : AggFits f as.length) (h : (Expr.agg f as ob fl w ign).check = .ok t) :
    callOf [f.name] as ob fl (if ign then some true else none) w = .ok (.agg f as ob fl w ign) := by
  unfold callOf
  dsimp only
  rw [(agg_named f).1]
  dsimp only
  rw [(agg_named f).2]
  dsimp only
  rw [agg_order hf]
  have : ((if ign = true then some true else none) == some true) = ign := by cases ign <;> rfl
  rw [this]
  exact build_ok h

theorem curTime_conv {f : CurFn} {p : Int} {t : Ty} (h0 : 0 ≤ p) (h : (Expr.curTime f p).check = .ok t) :
    dateTimeOf (kwT f.name) (precCst p) = .ok (.curTime f p) := by
  have hp : (match precCst p with
    | some n => ((digitsVal n.text : Nat) : Int)
    | none => 3) = p := by
    unfold precCst
    by_cases h3 : p = 3
    · rw [if_neg (by simpa using h3)]; exact h3.symm
    · rw [if_pos h3]
      show ((digitsVal (natStr p.natAbs) : Nat) : Int) = p
      rw [natStr_val]; omega
  have hp2 : ∀ q : Int, q = p → (Expr.curTime f q).build = .ok (.curTime f p) := by
    rintro q rfl; exact build_ok h
  unfold dateTimeOf
  cases f <;> exact hp2 _ hp

theorem session_conv (f : SessFn) : (sessCst f).conv = .ok (.session f) := by cases f <;> rfl

theorem sep_conv {sep : Str} (h : StrOk sep) : ∃ s, CStr.convOpt (sepCst sep) = .ok s ∧ s.getD (c% " ") = sep := by
  unfold sepCst
  split
  · exact ⟨some sep, ebind (string_tok h) rfl, rfl⟩
  · next h => exact ⟨none, rfl, (by simpa using h : sep = c% " ").symm⟩

theorem overflow_conv {ov : Option (Str × Bool)} (h : IfAny (fun f => StrOk f.1) ov) : overflowOf (overflowCst ov) = .ok ov := by
  cases ov with
  | none => rfl
  | some f => exact ebind (string_tok (h f rfl)) rfl

/-! ## Queries -/

theorem quant_distinct (d : Bool) : quantOf false (distinctTok d) = .ok d := by cases d <;> rfl
/-- GROUP BY DISTINCT. -/
def groupDistinct : Option GroupBy → Bool
  | some (.mk _ d) => d
  | none => false

theorem quant_group (gb : Option GroupBy) : quantOf false (groupQuant gb) = .ok (groupDistinct gb) := by
  cases gb with
  | none => rfl
  | some g => cases g with | mk gs d => cases d <;> rfl

theorem rows_conv {n : Option Int} (h : IfAny (fun n => 0 ≤ n) n) :
    (rowsTok n = none ∧ rowsOf n = none) ∨
    ∃ t, rowsTok n = some t ∧ t.kind = .int ∧ rowsOf n = some (digitsVal t.text : Int) := by
  cases n with
  | none => exact .inl ⟨rfl, rfl⟩
  | some n =>
    have h0 := h n rfl
    unfold rowsTok rowsOf
    by_cases hn : n = 0
    · left; subst hn; exact ⟨rfl, rfl⟩
    · right
      refine ⟨_, if_pos hn, rfl, ?_⟩
      dsimp only
      rw [if_neg hn, natStr_val]
      congr 1; omega

theorem dictSet_new {k : Str} {w : Win} : ∀ {ps : List (Str × Win)}, k ∉ ps.map Prod.fst → dictSet k w ps = ps ++ [(k, w)]
  | [], _ => rfl
  | (k', w') :: r, h => by
    have h1 : k' ≠ k := by rintro rfl; simp at h
    show (if k' = k then _ else _) = _
    rw [if_neg h1, dictSet_new (fun hm => h (List.mem_cons_of_mem _ hm))]
    rfl

theorem dict_fold : ∀ (ps acc : List (Str × Win)), ((acc ++ ps).map Prod.fst).Nodup →
    ps.foldl (fun d p => dictSet p.1 p.2 d) acc = acc ++ ps
  | [], acc, _ => by simp
  | p :: ps, acc, h => by
    rw [List.foldl_cons, dictSet_new, dict_fold ps _ (by simpa using h)]
    · simp
    · intro hm
      rw [List.map_append, List.map_cons, List.nodup_append] at h
      exact h.2.2 _ hm _ (by simp) rfl

theorem dictOf_nodup {ps : List (Str × Win)} (h : (ps.map Prod.fst).Nodup) : dictOf ps = ps := dict_fold ps [] h

theorem rereadNamed_fst : ∀ ws : List (Str × Win), (Win.rereadNamed ws).map Prod.fst = ws.map Prod.fst
  | [] => rfl
  | (n, w) :: ws => by
    rw [Win_rereadNamed_cons, List.map_cons, List.map_cons, rereadNamed_fst ws]

theorem table_conv {t : TableRef} (ht : TableOk t) (hf : TableFits t) (hc : (forgetTable t).check = .ok ()) :
    (do let ns ← identTexts t.nameToks; tableFromQualifiers ns) = .ok (forgetTable t) := by
  have h1 : identTexts t.nameToks = .ok ([t.catalog, t.schema, some t.name].filterMap id) := by
    refine idents_names _ fun n hn => ?_
    simp only [List.mem_filterMap, id_eq, List.mem_cons, List.not_mem_nil, or_false, exists_eq_right] at hn
    rcases hn with h | h | h
    · exact ht.2.2 n h.symm
    · exact ht.2.1 n h.symm
    · cases h; exact ht.1
  refine ebind h1 ?_
  cases t with
  | mk name schema catalog cols =>
    cases catalog with
    | none =>
      cases schema with
      | none => exact ebind hc rfl
      | some s => exact ebind hc rfl
    | some c =>
      cases schema with
      | none => exact nomatch hf rfl
      | some s => exact ebind hc rfl

theorem setCst_conv {cs : List CE} {es : List Expr} (h : CE.convs cs = .ok es) : (setCst cs).conv = .ok es := by
  unfold setCst
  split
  · rw [CE_convs_cons] at h
    rw [CSet_conv_expr]
    obtain ⟨a, ha, h⟩ := bind_ok h
    refine ebind ha ?_
    exact h
  · rw [CSet_conv_paren]; exact h

theorem rereads_length : ∀ es : List Expr, (Expr.rereads es).length = es.length
  | [] => rfl
  | e :: es => by rw [Expr_rereads_cons, List.length_cons, List.length_cons, rereads_length es]

theorem wrapR_conv (b : Bool) (r : CR) : (wrapR b r).conv = r.conv := by
  unfold wrapR
  split
  · rw [CR_conv_paren]
  · rfl

theorem rel_build {r : Rel} (h : r.check = .ok ()) : r.build = .ok r := by
  unfold Rel.build; rw [h]; rfl
theorem grp_build {r : Grp} (h : r.check = .ok ()) : r.build = .ok r := by
  unfold Grp.build; rw [h]; rfl
theorem query_build {q : Query} {t : Ty} (h : q.check = .ok t) : q.build = .ok q := by
  unfold Query.build; rw [h]; rfl

end Treeno
