import Verif.Lemmas.RespellTok
import Verif.Lemmas.SpelledEqs
import Verif.Lemmas.ConvEqs
/-!
# What is read from a parse tree does not depend on the case of its keywords

as long as the words of `spelled` stay as they are.
-/
set_option linter.unusedSimpArgs false
set_option linter.unusedVariables false
namespace Treeno
variable {σ : Tok → Tok}

/-- `σ` keeps these tokens. -/
def Fixes (σ : Tok → Tok) (ts : List Tok) : Prop := ∀ t ∈ ts, σ t = t

theorem fixes_append {a b : List Tok} : Fixes σ (a ++ b) ↔ Fixes σ a ∧ Fixes σ b :=
  ⟨fun h => ⟨fun t ht => h t (List.mem_append_left _ ht), fun t ht => h t (List.mem_append_right _ ht)⟩,
   fun h t ht => (List.mem_append.1 ht).elim (h.1 t) (h.2 t)⟩
theorem fix_tok {t : Tok} (h : Fixes σ [t]) : σ t = t := h t List.mem_cons_self
theorem fix_list : ∀ {ts : List Tok}, Fixes σ ts → ts.map σ = ts
  | [], _ => rfl
  | t :: ts, h => by
    rw [List.map_cons, h t List.mem_cons_self, fix_list fun u hu => h u (List.mem_cons_of_mem _ hu)]
theorem fix_opt : ∀ {o : Option Tok}, Fixes σ o.toList → o.map σ = o
  | none, _ => rfl
  | some t, h => congrArg some (fix_tok (h : Fixes σ [t]))

/-- What is no keyword is not written by a changed token, before or after. -/
theorem Keeps.same (h : Keeps σ) (t : Tok) {s : Str} (hs : upper s ∉ keywords) : ((σ t).text = s) = (t.text = s) := by
  by_cases e : σ t = t
  · rw [e]
  · have hw := h.word t e
    refine propext ⟨fun k => absurd ?_ hs, fun k => absurd ?_ hs⟩
    · rw [← k, h.up]; exact hw
    · rw [← k]; exact hw

theorem Keeps.cmpOf (h : Keeps σ) (t : Tok) : Treeno.cmpOf (σ t) = Treeno.cmpOf t := by
  simp only [Treeno.cmpOf, h.same t (s := c% "=") (by decide), h.same t (s := c% ">") (by decide),
    h.same t (s := c% ">=") (by decide), h.same t (s := c% "<") (by decide), h.same t (s := c% "<=") (by decide),
    h.same t (s := c% "<>") (by decide)]
theorem Keeps.arithOf (h : Keeps σ) (t : Tok) : Treeno.arithOf (σ t) = Treeno.arithOf t := by
  simp only [Treeno.arithOf, h.same t (s := c% "+") (by decide), h.same t (s := c% "-") (by decide),
    h.same t (s := c% "*") (by decide), h.same t (s := c% "/") (by decide), h.same t (s := c% "%") (by decide)]
theorem Keeps.signOf (h : Keeps σ) (t : Tok) : Treeno.signOf (σ t) = Treeno.signOf t := by
  simp only [Treeno.signOf, h.same t (s := c% "+") (by decide), h.same t (s := c% "-") (by decide)]
theorem Keeps.minus (h : Keeps σ) (o : Option Tok) :
    ((o.map σ).any fun t => t.text == c% "-") = o.any fun t => t.text == c% "-" := by
  cases o with
  | none => rfl
  | some t =>
    have e := h.same t (s := c% "-") (by decide)
    show ((σ t).text == c% "-") = (t.text == c% "-")
    rw [Bool.eq_iff_iff, beq_iff_eq, beq_iff_eq, e]
theorem Keeps.upText (h : Keeps σ) (t : Tok) : upper (σ t).text = upper t.text := h.up t

theorem Keeps.numLit (h : Keeps σ) (m : Bool) (t : Tok) : Treeno.numLit m (σ t) = Treeno.numLit m t := by
  by_cases hk : t.kind = .kw
  · have hk' : (σ t).kind = .kw := by rw [h.kind]; exact hk
    simp only [Treeno.numLit, hk, hk']
  · rw [h.other t hk]
theorem Keeps.stringText (h : Keeps σ) (t : Tok) : Treeno.stringText (σ t) = Treeno.stringText t := by
  by_cases hk : t.kind = .kw
  · have hk' : (σ t).kind = .kw := by rw [h.kind]; exact hk
    simp only [Treeno.stringText, hk, hk']
  · rw [h.other t hk]
theorem Keeps.rowCountOf (h : Keeps σ) (t : Tok) : Treeno.rowCountOf (σ t) = Treeno.rowCountOf t := by
  by_cases hk : t.kind = .kw
  · have hk' : (σ t).kind = .kw := by rw [h.kind]; exact hk
    simp only [Treeno.rowCountOf, hk, hk']; rfl
  · rw [h.other t hk]
theorem Keeps.cstr (h : Keeps σ) (s : CStr) : (s.respell σ).conv = s.conv := by
  cases s with
  | basic t => exact h.stringText t
  | unicode t e =>
    show unicodeText (σ t) (e.map σ) = unicodeText t e
    have he : escapeText (e.map σ) = escapeText e := by
      cases e with
      | none => rfl
      | some u => exact h.stringText u
    by_cases hk : t.kind = .kw
    · have hk' : (σ t).kind = .kw := by rw [h.kind]; exact hk
      simp only [unicodeText, hk, hk']
    · rw [h.other t hk]
      simp only [unicodeText, he]
theorem Keeps.cstrOpt (h : Keeps σ) (s : Option CStr) : CStr.convOpt (s.map (CStr.respell σ)) = CStr.convOpt s := by
  cases s with
  | none => rfl
  | some s => simp only [Option.map_some, CStr.convOpt, h.cstr]
theorem Keeps.overflowOf (h : Keeps σ) (o : Option COverflow) :
    Treeno.overflowOf (o.map (COverflow.respell σ)) = Treeno.overflowOf o := by
  cases o with
  | none => rfl
  | some o =>
    cases o with
    | error => rfl
    | truncate s w =>
      cases s with
      | none => rfl
      | some s => simp only [Option.map_some, COverflow.respell, Treeno.overflowOf, h.cstr]
theorem Keeps.dateTimeOf (h : Keeps σ) (t : Tok) (p : Option Tok) : Treeno.dateTimeOf (σ t) p = Treeno.dateTimeOf t p := by
  simp only [Treeno.dateTimeOf, h.up]
theorem Keeps.sessionOf (h : Keeps σ) (t : Tok) : Treeno.sessionOf (σ t) = Treeno.sessionOf t := by
  simp only [Treeno.sessionOf, h.up]
theorem Keeps.setKindOf (h : Keeps σ) (t : Tok) : Treeno.setKindOf (σ t) = Treeno.setKindOf t := by
  simp only [Treeno.setKindOf, h.up]
theorem Keeps.frameOf (h : Keeps σ) (t : Tok) : Treeno.frameOf (σ t) = Treeno.frameOf t := by
  simp only [Treeno.frameOf, h.up]
theorem Keeps.boundOf (h : Keeps σ) (t : Tok) : Treeno.boundOf (σ t) = Treeno.boundOf t := by
  simp only [Treeno.boundOf, h.up]
theorem Keeps.isDesc (h : Keeps σ) (o : Option Tok) : Treeno.isDesc (o.map σ) = Treeno.isDesc o := by
  cases o with
  | none => rfl
  | some t => simp only [Option.map_some, Treeno.isDesc, h.up]
theorem Keeps.isNullsFirst (h : Keeps σ) (o : Option Tok) : Treeno.isNullsFirst (o.map σ) = Treeno.isNullsFirst o := by
  cases o with
  | none => rfl
  | some t => simp only [Option.map_some, Treeno.isNullsFirst, h.up]
theorem Keeps.offsetQuery (h : Keeps σ) (o : Option (Tok × Option Tok)) (q : Option Query) :
    Treeno.offsetQuery (o.map fun p => (σ p.1, p.2.map σ)) q = Treeno.offsetQuery o q := by
  cases o with
  | none => rfl
  | some p => simp only [Option.map_some, Treeno.offsetQuery, h.rowCountOf]
theorem limit_respell (h : Keeps σ) (l : CLimit) (hf : Fixes σ l.spelled) (q : Option Query) :
    limitQuery (l.respell σ) q = limitQuery l q := by
  cases l with
  | none => rfl
  | limit t => simp only [CLimit.respell, limitQuery, fix_tok hf]
  | fetch f n r w => rfl

theorem isNone_respell (n : Nat) : ∀ c : CE, sizeOf c < n → (c.respell σ).isNone = c.isNone := by
  induction n with
  | zero => intro c hc; exact absurd hc (Nat.not_lt_zero _)
  | succ n ih =>
    intro c hc
    cases c
    case paren e => exact ih e (by simp only [CE.paren.sizeOf_spec] at hc; omega)
    all_goals rfl
theorem Keeps.isNone (_ : Keeps σ) (c : CE) : (c.respell σ).isNone = c.isNone :=
  isNone_respell _ c (Nat.lt_succ_self _)
theorem Keeps.isNoneOpt (h : Keeps σ) (c : Option CE) : CE.isNoneOpt (c.map (CE.respell σ)) = CE.isNoneOpt c := by
  cases c with
  | none => rfl
  | some c => exact h.isNone c
theorem zone_respell (h : Keeps σ) (c : CE) (hf : Fixes σ c.spelled) : zoneOf (c.respell σ) = zoneOf c := by
  cases c
  case interval sg s f t =>
    rw [CE_spelled_interval, fixes_append] at hf
    simp only [CE_respell_interval, zoneOf, h.cstr, h.minus, fix_tok hf.1, fix_opt hf.2]
  all_goals rfl

/-! Names of which only the upper-case form is used. -/

theorem Keeps.name (h : Keeps σ) (t : Tok) {α : Type} {K : Str → Except Err α}
    (hK : ∀ a b, upper a = upper b → K a = K b) : (identText (σ t) >>= K) = (identText t >>= K) := by
  by_cases hk : t.kind = .kw
  · have hk' : (σ t).kind = .kw := by rw [h.kind]; exact hk
    simp only [identText, hk, hk']
    exact hK _ _ (h.up t)
  · rw [h.other t hk]
theorem Keeps.anyName (h : Keeps σ) (t : Tok) {α : Type} {x : Except Err α} :
    (identText (σ t) >>= fun _ => x) = (identText t >>= fun _ => x) := h.name t fun _ _ _ => rfl
theorem Keeps.names (h : Keeps σ) : ∀ (ts : List Tok) {α : Type} {K : List Str → Except Err α},
    (∀ a b, a.map upper = b.map upper → K a = K b) → (identTexts (ts.map σ) >>= K) = (identTexts ts >>= K)
  | [], _, _, _ => rfl
  | t :: ts, _, K, hK => by
    have e (u : Tok) (us : List Tok) : (identTexts (u :: us) >>= K) =
        (identText u >>= fun s => identTexts us >>= fun r => K (s :: r)) := by
      show ((identText u >>= fun s => identTexts us >>= fun r => .ok (s :: r)) >>= K) = _
      cases identText u with
      | error _ => rfl
      | ok s =>
        cases identTexts us with
        | error _ => rfl
        | ok r => rfl
    rw [List.map_cons, e, e]
    have e1 : ∀ s, (identTexts (ts.map σ) >>= fun r => K (s :: r)) = (identTexts ts >>= fun r => K (s :: r)) :=
      fun s => h.names ts fun a b hab => hK _ _ (by rw [List.map_cons, List.map_cons, hab])
    simp only [e1]
    refine h.name t fun a b hab => ?_
    have : ∀ r, K (a :: r) = K (b :: r) := fun r => hK _ _ (by rw [List.map_cons, List.map_cons, hab])
    simp only [this]
theorem callOf_up {a b : List Str} (e : a.map upper = b.map upper) : callOf a = callOf b := by
  cases a with
  | nil => cases b with
    | nil => rfl
    | cons _ _ => exact List.noConfusion rfl (heq_of_eq e)
  | cons x a => cases b with
    | nil => exact List.noConfusion rfl (heq_of_eq e)
    | cons y b =>
      have hx : upper x = upper y := List.head_eq_of_cons_eq e
      have hr : a.map upper = b.map upper := List.tail_eq_of_cons_eq e
      cases a with
      | nil => cases b with
        | nil => funext args ob fl ign w; simp only [callOf, hx]
        | cons _ _ => exact List.noConfusion rfl (heq_of_eq hr)
      | cons _ _ => cases b with
        | nil => exact List.noConfusion rfl (heq_of_eq hr)
        | cons _ _ => rfl

/-! ## Types -/

mutual
theorem cr_CTy_conv (h : Keeps σ) : ∀ c : CTy, Fixes σ c.spelled → (c.respell σ).conv = c.conv
  | .row fs, hf => by
    have e := cr_CField_convs h fs hf
    rw [CTy_respell_row]
    show (CField.convs _ >>= _) = (CField.convs _ >>= _)
    rw [e]
  | .interval f to, hf => by
    rw [CTy_spelled_interval, fixes_append] at hf
    rw [CTy_respell_interval, fix_tok hf.1, fix_opt hf.2]
  | .datetime ts p z, hf => by
    have e := cr_CTParam_convOpt h p hf
    rw [CTy_respell_datetime]
    show (CTParam.convOpt _ >>= _) = (CTParam.convOpt _ >>= _)
    rw [e]
  | .doublePrecision, _ => rfl
  | .legacyArray _, _ => rfl
  | .legacyMap _ _, _ => rfl
  | .arrayOf t n, hf => by
    have e := cr_CTy_conv h t hf
    rw [CTy_respell_arrayOf]
    simp only [CTy.conv, e, Option.isSome_map]
  | .generic n ps, hf => by
    have e := cr_CTParam_convs h ps hf
    rw [CTy_respell_generic]
    show (CTParam.convs _ >>= fun vs => identText _ >>= _) = (CTParam.convs _ >>= fun vs => identText _ >>= _)
    rw [e]
    refine bind_congr fun vs => ?_
    exact h.name n fun a b hab => by simp only [hab]
theorem cr_CField_conv (h : Keeps σ) : ∀ c : CField, Fixes σ c.spelled → (c.respell σ).conv = c.conv
  | .mk (some _) _, _ => rfl
  | .mk none t, hf => cr_CTy_conv h t hf
theorem cr_CTParam_conv (h : Keeps σ) : ∀ c : CTParam, Fixes σ c.spelled → (c.respell σ).conv = c.conv
  | .int t, hf => by
    rw [CTParam_respell_int, fix_tok hf]
  | .ty t, hf => by
    have e := cr_CTy_conv h t hf
    rw [CTParam_respell_ty]
    show (CTy.conv _ >>= _) = (CTy.conv _ >>= _)
    rw [e]
theorem cr_CTParam_convOpt (h : Keeps σ) : ∀ c : Option CTParam, Fixes σ (CTParam.spelledOpt c) →
    CTParam.convOpt (c.map (CTParam.respell σ)) = CTParam.convOpt c
  | none, _ => rfl
  | some p, hf => by
    have e := cr_CTParam_conv h p hf
    show (CTParam.conv _ >>= _) = (CTParam.conv _ >>= _)
    rw [e]
theorem cr_CField_convs (h : Keeps σ) : ∀ c : List CField, Fixes σ (CField.spelleds c) →
    CField.convs (c.map (CField.respell σ)) = CField.convs c
  | [], _ => rfl
  | f :: fs, hf => by
    rw [CField_spelleds_cons, fixes_append] at hf
    have e := cr_CField_conv h f hf.1
    have es := cr_CField_convs h fs hf.2
    rw [List.map_cons]
    show (CField.conv _ >>= fun t => CField.convs _ >>= fun ts => _) = (CField.conv _ >>= fun t => CField.convs _ >>= fun ts => _)
    rw [e, es]
theorem cr_CTParam_convs (h : Keeps σ) : ∀ c : List CTParam, Fixes σ (CTParam.spelleds c) →
    CTParam.convs (c.map (CTParam.respell σ)) = CTParam.convs c
  | [], _ => rfl
  | f :: fs, hf => by
    rw [CTParam_spelleds_cons, fixes_append] at hf
    have e := cr_CTParam_conv h f hf.1
    have es := cr_CTParam_convs h fs hf.2
    rw [List.map_cons]
    show (CTParam.conv _ >>= fun t => CTParam.convs _ >>= fun ts => _) = (CTParam.conv _ >>= fun t => CTParam.convs _ >>= fun ts => _)
    rw [e, es]
end

/-! ## Expressions, queries and relations -/

mutual
theorem cr_CE_conv (h : Keeps σ) : ∀ (c : CE), Fixes σ (c.spelled) → CE.conv (c.respell σ) = CE.conv c
  | .or_ x0 x1, hf => by
    simp only [CE_spelled_or_, fixes_append] at hf
    have f_x0 : Fixes σ (x0.spelled) := by simp only [hf]
    have e_x0 := cr_CE_conv h x0 f_x0
    have f_x1 : Fixes σ (x1.spelled) := by simp only [hf]
    have e_x1 := cr_CE_conv h x1 f_x1
    simp only [CE_respell_or_, CE_conv_or_, h.cmpOf, h.arithOf, h.signOf, h.numLit, h.cstr, h.cstrOpt, h.overflowOf, h.minus, h.upText, h.dateTimeOf, h.sessionOf, h.isNone, h.isNoneOpt, h.setKindOf, h.frameOf, h.boundOf, h.isDesc, h.isNullsFirst, h.offsetQuery, e_x0, e_x1]
  | .and_ x0 x1, hf => by
    simp only [CE_spelled_and_, fixes_append] at hf
    have f_x0 : Fixes σ (x0.spelled) := by simp only [hf]
    have e_x0 := cr_CE_conv h x0 f_x0
    have f_x1 : Fixes σ (x1.spelled) := by simp only [hf]
    have e_x1 := cr_CE_conv h x1 f_x1
    simp only [CE_respell_and_, CE_conv_and_, h.cmpOf, h.arithOf, h.signOf, h.numLit, h.cstr, h.cstrOpt, h.overflowOf, h.minus, h.upText, h.dateTimeOf, h.sessionOf, h.isNone, h.isNoneOpt, h.setKindOf, h.frameOf, h.boundOf, h.isDesc, h.isNullsFirst, h.offsetQuery, e_x0, e_x1]
  | .not_ x0, hf => by
    simp only [CE_spelled_not_, fixes_append] at hf
    have f_x0 : Fixes σ (x0.spelled) := by simp only [hf]
    have e_x0 := cr_CE_conv h x0 f_x0
    simp only [CE_respell_not_, CE_conv_not_, h.cmpOf, h.arithOf, h.signOf, h.numLit, h.cstr, h.cstrOpt, h.overflowOf, h.minus, h.upText, h.dateTimeOf, h.sessionOf, h.isNone, h.isNoneOpt, h.setKindOf, h.frameOf, h.boundOf, h.isDesc, h.isNullsFirst, h.offsetQuery, e_x0]
  | .cmp x0 x1 x2, hf => by
    simp only [CE_spelled_cmp, fixes_append] at hf
    have f_x1 : Fixes σ (x1.spelled) := by simp only [hf]
    have e_x1 := cr_CE_conv h x1 f_x1
    have f_x2 : Fixes σ (x2.spelled) := by simp only [hf]
    have e_x2 := cr_CE_conv h x2 f_x2
    simp only [CE_respell_cmp, CE_conv_cmp, h.cmpOf, h.arithOf, h.signOf, h.numLit, h.cstr, h.cstrOpt, h.overflowOf, h.minus, h.upText, h.dateTimeOf, h.sessionOf, h.isNone, h.isNoneOpt, h.setKindOf, h.frameOf, h.boundOf, h.isDesc, h.isNullsFirst, h.offsetQuery, e_x1, e_x2]
  | .between x0 x1 x2 x3, hf => by
    simp only [CE_spelled_between, fixes_append] at hf
    have f_x1 : Fixes σ (x1.spelled) := by simp only [hf]
    have e_x1 := cr_CE_conv h x1 f_x1
    have f_x2 : Fixes σ (x2.spelled) := by simp only [hf]
    have e_x2 := cr_CE_conv h x2 f_x2
    have f_x3 : Fixes σ (x3.spelled) := by simp only [hf]
    have e_x3 := cr_CE_conv h x3 f_x3
    simp only [CE_respell_between, CE_conv_between, h.cmpOf, h.arithOf, h.signOf, h.numLit, h.cstr, h.cstrOpt, h.overflowOf, h.minus, h.upText, h.dateTimeOf, h.sessionOf, h.isNone, h.isNoneOpt, h.setKindOf, h.frameOf, h.boundOf, h.isDesc, h.isNullsFirst, h.offsetQuery, e_x1, e_x2, e_x3]
  | .inList x0 x1 x2, hf => by
    simp only [CE_spelled_inList, fixes_append] at hf
    have f_x1 : Fixes σ (x1.spelled) := by simp only [hf]
    have e_x1 := cr_CE_conv h x1 f_x1
    have f_x2 : Fixes σ (CE.spelleds x2) := by simp only [hf]
    have e_x2 := cr_CE_convs h x2 f_x2
    simp only [CE_respell_inList, CE_conv_inList, h.cmpOf, h.arithOf, h.signOf, h.numLit, h.cstr, h.cstrOpt, h.overflowOf, h.minus, h.upText, h.dateTimeOf, h.sessionOf, h.isNone, h.isNoneOpt, h.setKindOf, h.frameOf, h.boundOf, h.isDesc, h.isNullsFirst, h.offsetQuery, e_x1, e_x2]
  | .inSub x0 x1 x2, hf => by
    simp only [CE_spelled_inSub, fixes_append] at hf
    have f_x1 : Fixes σ (x1.spelled) := by simp only [hf]
    have e_x1 := cr_CE_conv h x1 f_x1
    have f_x2 : Fixes σ (x2.spelled) := by simp only [hf]
    have e_x2 := cr_CQ_conv h x2 f_x2
    simp only [CE_respell_inSub, CE_conv_inSub, h.cmpOf, h.arithOf, h.signOf, h.numLit, h.cstr, h.cstrOpt, h.overflowOf, h.minus, h.upText, h.dateTimeOf, h.sessionOf, h.isNone, h.isNoneOpt, h.setKindOf, h.frameOf, h.boundOf, h.isDesc, h.isNullsFirst, h.offsetQuery, e_x1, e_x2]
  | .like x0 x1 x2 x3, hf => by
    simp only [CE_spelled_like, fixes_append] at hf
    have f_x1 : Fixes σ (x1.spelled) := by simp only [hf]
    have e_x1 := cr_CE_conv h x1 f_x1
    have f_x2 : Fixes σ (x2.spelled) := by simp only [hf]
    have e_x2 := cr_CE_conv h x2 f_x2
    have f_x3 : Fixes σ (CE.spelledOpt x3) := by simp only [hf]
    have e_x3 := cr_CE_convOpt h x3 f_x3
    simp only [CE_respell_like, CE_conv_like, h.cmpOf, h.arithOf, h.signOf, h.numLit, h.cstr, h.cstrOpt, h.overflowOf, h.minus, h.upText, h.dateTimeOf, h.sessionOf, h.isNone, h.isNoneOpt, h.setKindOf, h.frameOf, h.boundOf, h.isDesc, h.isNullsFirst, h.offsetQuery, e_x1, e_x2, e_x3]
  | .isNull x0 x1, hf => by
    simp only [CE_spelled_isNull, fixes_append] at hf
    have f_x1 : Fixes σ (x1.spelled) := by simp only [hf]
    have e_x1 := cr_CE_conv h x1 f_x1
    simp only [CE_respell_isNull, CE_conv_isNull, h.cmpOf, h.arithOf, h.signOf, h.numLit, h.cstr, h.cstrOpt, h.overflowOf, h.minus, h.upText, h.dateTimeOf, h.sessionOf, h.isNone, h.isNoneOpt, h.setKindOf, h.frameOf, h.boundOf, h.isDesc, h.isNullsFirst, h.offsetQuery, e_x1]
  | .distinct x0 x1 x2, hf => by
    simp only [CE_spelled_distinct, fixes_append] at hf
    have f_x1 : Fixes σ (x1.spelled) := by simp only [hf]
    have e_x1 := cr_CE_conv h x1 f_x1
    have f_x2 : Fixes σ (x2.spelled) := by simp only [hf]
    have e_x2 := cr_CE_conv h x2 f_x2
    simp only [CE_respell_distinct, CE_conv_distinct, h.cmpOf, h.arithOf, h.signOf, h.numLit, h.cstr, h.cstrOpt, h.overflowOf, h.minus, h.upText, h.dateTimeOf, h.sessionOf, h.isNone, h.isNoneOpt, h.setKindOf, h.frameOf, h.boundOf, h.isDesc, h.isNullsFirst, h.offsetQuery, e_x1, e_x2]
  | .quantified x0 x1 x2 x3, hf => by
    simp only [CE_spelled_quantified, fixes_append] at hf
    have f_x2 : Fixes σ (x2.spelled) := by simp only [hf]
    have e_x2 := cr_CE_conv h x2 f_x2
    have f_x3 : Fixes σ (x3.spelled) := by simp only [hf]
    have e_x3 := cr_CQ_conv h x3 f_x3
    simp only [CE_respell_quantified, CE_conv_quantified, h.cmpOf, h.arithOf, h.signOf, h.numLit, h.cstr, h.cstrOpt, h.overflowOf, h.minus, h.upText, h.dateTimeOf, h.sessionOf, h.isNone, h.isNoneOpt, h.setKindOf, h.frameOf, h.boundOf, h.isDesc, h.isNullsFirst, h.offsetQuery, e_x2, e_x3]
  | .concat x0 x1, hf => by
    simp only [CE_spelled_concat, fixes_append] at hf
    have f_x0 : Fixes σ (x0.spelled) := by simp only [hf]
    have e_x0 := cr_CE_conv h x0 f_x0
    have f_x1 : Fixes σ (x1.spelled) := by simp only [hf]
    have e_x1 := cr_CE_conv h x1 f_x1
    simp only [CE_respell_concat, CE_conv_concat, h.cmpOf, h.arithOf, h.signOf, h.numLit, h.cstr, h.cstrOpt, h.overflowOf, h.minus, h.upText, h.dateTimeOf, h.sessionOf, h.isNone, h.isNoneOpt, h.setKindOf, h.frameOf, h.boundOf, h.isDesc, h.isNullsFirst, h.offsetQuery, e_x0, e_x1]
  | .arith x0 x1 x2, hf => by
    simp only [CE_spelled_arith, fixes_append] at hf
    have f_x1 : Fixes σ (x1.spelled) := by simp only [hf]
    have e_x1 := cr_CE_conv h x1 f_x1
    have f_x2 : Fixes σ (x2.spelled) := by simp only [hf]
    have e_x2 := cr_CE_conv h x2 f_x2
    simp only [CE_respell_arith, CE_conv_arith, h.cmpOf, h.arithOf, h.signOf, h.numLit, h.cstr, h.cstrOpt, h.overflowOf, h.minus, h.upText, h.dateTimeOf, h.sessionOf, h.isNone, h.isNoneOpt, h.setKindOf, h.frameOf, h.boundOf, h.isDesc, h.isNullsFirst, h.offsetQuery, e_x1, e_x2]
  | .sign x0 x1, hf => by
    simp only [CE_spelled_sign, fixes_append] at hf
    have f_x1 : Fixes σ (x1.spelled) := by simp only [hf]
    have e_x1 := cr_CE_conv h x1 f_x1
    simp only [CE_respell_sign, CE_conv_sign, h.cmpOf, h.arithOf, h.signOf, h.numLit, h.cstr, h.cstrOpt, h.overflowOf, h.minus, h.upText, h.dateTimeOf, h.sessionOf, h.isNone, h.isNoneOpt, h.setKindOf, h.frameOf, h.boundOf, h.isDesc, h.isNullsFirst, h.offsetQuery, e_x1]
  | .atZone x0 x1, hf => by
    simp only [CE_spelled_atZone, fixes_append] at hf
    have f_x0 : Fixes σ (x0.spelled) := by simp only [hf]
    have e_x0 := cr_CE_conv h x0 f_x0
    have f_x1 : Fixes σ (x1.spelled) := by simp only [hf]
    have e_x1 := cr_CE_conv h x1 f_x1
    have e_x1 := zone_respell h x1 f_x1
    simp only [CE_respell_atZone, CE_conv_atZone, h.cmpOf, h.arithOf, h.signOf, h.numLit, h.cstr, h.cstrOpt, h.overflowOf, h.minus, h.upText, h.dateTimeOf, h.sessionOf, h.isNone, h.isNoneOpt, h.setKindOf, h.frameOf, h.boundOf, h.isDesc, h.isNullsFirst, h.offsetQuery, e_x0, e_x1]
  | .null, hf => by
    rfl
  | .interval x0 x1 x2 x3, hf => by
    simp only [CE_spelled_interval, fixes_append] at hf
    have f_x2 : Fixes σ ([x2]) := by simp only [hf]
    have e_x2 := fix_tok f_x2
    have f_x3 : Fixes σ (x3.toList) := by simp only [hf]
    have e_x3 := fix_opt f_x3
    simp only [CE_respell_interval, CE_conv_interval, h.cmpOf, h.arithOf, h.signOf, h.numLit, h.cstr, h.cstrOpt, h.overflowOf, h.minus, h.upText, h.dateTimeOf, h.sessionOf, h.isNone, h.isNoneOpt, h.setKindOf, h.frameOf, h.boundOf, h.isDesc, h.isNullsFirst, h.offsetQuery, e_x2, e_x3]
  | .typeCtor x0 x1, hf => by
    simp only [CE_spelled_typeCtor, fixes_append] at hf
    have f_x0 : Fixes σ ([x0]) := by simp only [hf]
    have e_x0 := fix_tok f_x0
    simp only [CE_respell_typeCtor, CE_conv_typeCtor, h.cmpOf, h.arithOf, h.signOf, h.numLit, h.cstr, h.cstrOpt, h.overflowOf, h.minus, h.upText, h.dateTimeOf, h.sessionOf, h.isNone, h.isNoneOpt, h.setKindOf, h.frameOf, h.boundOf, h.isDesc, h.isNullsFirst, h.offsetQuery, e_x0]
  | .doublePrecision x0, hf => by
    simp only [CE_respell_doublePrecision, CE_conv_doublePrecision, h.cmpOf, h.arithOf, h.signOf, h.numLit, h.cstr, h.cstrOpt, h.overflowOf, h.minus, h.upText, h.dateTimeOf, h.sessionOf, h.isNone, h.isNoneOpt, h.setKindOf, h.frameOf, h.boundOf, h.isDesc, h.isNullsFirst, h.offsetQuery]
  | .num x0 x1, hf => by
    simp only [CE_respell_num, CE_conv_num, h.cmpOf, h.arithOf, h.signOf, h.numLit, h.cstr, h.cstrOpt, h.overflowOf, h.minus, h.upText, h.dateTimeOf, h.sessionOf, h.isNone, h.isNoneOpt, h.setKindOf, h.frameOf, h.boundOf, h.isDesc, h.isNullsFirst, h.offsetQuery]
  | .bool x0, hf => by
    simp only [CE_respell_bool, CE_conv_bool, h.cmpOf, h.arithOf, h.signOf, h.numLit, h.cstr, h.cstrOpt, h.overflowOf, h.minus, h.upText, h.dateTimeOf, h.sessionOf, h.isNone, h.isNoneOpt, h.setKindOf, h.frameOf, h.boundOf, h.isDesc, h.isNullsFirst, h.offsetQuery]
  | .str x0, hf => by
    simp only [CE_respell_str, CE_conv_str, h.cmpOf, h.arithOf, h.signOf, h.numLit, h.cstr, h.cstrOpt, h.overflowOf, h.minus, h.upText, h.dateTimeOf, h.sessionOf, h.isNone, h.isNoneOpt, h.setKindOf, h.frameOf, h.boundOf, h.isDesc, h.isNullsFirst, h.offsetQuery]
  | .binary x0, hf => by
    simp only [CE_respell_binary, CE_conv_binary, h.cmpOf, h.arithOf, h.signOf, h.numLit, h.cstr, h.cstrOpt, h.overflowOf, h.minus, h.upText, h.dateTimeOf, h.sessionOf, h.isNone, h.isNoneOpt, h.setKindOf, h.frameOf, h.boundOf, h.isDesc, h.isNullsFirst, h.offsetQuery]
  | .param, hf => by
    rfl
  | .row x0, hf => by
    simp only [CE_spelled_row, fixes_append] at hf
    have f_x0 : Fixes σ (CE.spelleds x0) := by simp only [hf]
    have e_x0 := cr_CE_convs h x0 f_x0
    simp only [CE_respell_row, CE_conv_row, h.cmpOf, h.arithOf, h.signOf, h.numLit, h.cstr, h.cstrOpt, h.overflowOf, h.minus, h.upText, h.dateTimeOf, h.sessionOf, h.isNone, h.isNoneOpt, h.setKindOf, h.frameOf, h.boundOf, h.isDesc, h.isNullsFirst, h.offsetQuery, e_x0]
  | .rowKw x0, hf => by
    simp only [CE_spelled_rowKw, fixes_append] at hf
    have f_x0 : Fixes σ (CE.spelleds x0) := by simp only [hf]
    have e_x0 := cr_CE_convs h x0 f_x0
    simp only [CE_respell_rowKw, CE_conv_rowKw, h.cmpOf, h.arithOf, h.signOf, h.numLit, h.cstr, h.cstrOpt, h.overflowOf, h.minus, h.upText, h.dateTimeOf, h.sessionOf, h.isNone, h.isNoneOpt, h.setKindOf, h.frameOf, h.boundOf, h.isDesc, h.isNullsFirst, h.offsetQuery, e_x0]
  | .listagg x0 x1 x2 x3 x4, hf => by
    simp only [CE_spelled_listagg, fixes_append] at hf
    have f_x1 : Fixes σ (x1.spelled) := by simp only [hf]
    have e_x1 := cr_CE_conv h x1 f_x1
    have f_x4 : Fixes σ (CSort.spelleds x4) := by simp only [hf]
    have e_x4 := cr_CSort_convs h x4 f_x4
    simp only [CE_respell_listagg, CE_conv_listagg, h.cmpOf, h.arithOf, h.signOf, h.numLit, h.cstr, h.cstrOpt, h.overflowOf, h.minus, h.upText, h.dateTimeOf, h.sessionOf, h.isNone, h.isNoneOpt, h.setKindOf, h.frameOf, h.boundOf, h.isDesc, h.isNullsFirst, h.offsetQuery, e_x1, e_x4]
  | .callStar x0 x1 x2 x3, hf => by
    simp only [CE_spelled_callStar, fixes_append] at hf
    have f_x1 : Fixes σ (x1.toList) := by simp only [hf]
    have e_x1 := fix_opt f_x1
    have f_x2 : Fixes σ (CE.spelledOpt x2) := by simp only [hf]
    have e_x2 := cr_CE_convOpt h x2 f_x2
    have f_x3 : Fixes σ (CWin.spelledOpt x3) := by simp only [hf]
    have e_x3 := cr_CWin_convOpt h x3 f_x3
    simp only [CE_respell_callStar, CE_conv_callStar, h.cmpOf, h.arithOf, h.signOf, h.numLit, h.cstr, h.cstrOpt, h.overflowOf, h.minus, h.upText, h.dateTimeOf, h.sessionOf, h.isNone, h.isNoneOpt, h.setKindOf, h.frameOf, h.boundOf, h.isDesc, h.isNullsFirst, h.offsetQuery, e_x1, e_x2, e_x3]
    exact h.names _ fun ns ns' e => by simp only [callOf_up e]
  | .call x0 x1 x2 x3 x4 x5 x6, hf => by
    simp only [CE_spelled_call, fixes_append] at hf
    have f_x2 : Fixes σ (CE.spelleds x2) := by simp only [hf]
    have e_x2 := cr_CE_convs h x2 f_x2
    have f_x3 : Fixes σ (CSort.spelleds x3) := by simp only [hf]
    have e_x3 := cr_CSort_convs h x3 f_x3
    have f_x4 : Fixes σ (CE.spelledOpt x4) := by simp only [hf]
    have e_x4 := cr_CE_convOpt h x4 f_x4
    have f_x6 : Fixes σ (CWin.spelledOpt x6) := by simp only [hf]
    have e_x6 := cr_CWin_convOpt h x6 f_x6
    simp only [CE_respell_call, CE_conv_call, h.cmpOf, h.arithOf, h.signOf, h.numLit, h.cstr, h.cstrOpt, h.overflowOf, h.minus, h.upText, h.dateTimeOf, h.sessionOf, h.isNone, h.isNoneOpt, h.setKindOf, h.frameOf, h.boundOf, h.isDesc, h.isNullsFirst, h.offsetQuery, e_x2, e_x3, e_x4, e_x6]
    exact h.names _ fun ns ns' e => by simp only [callOf_up e]
  | .lam x0 x1 x2, hf => by
    simp only [CE_spelled_lam, fixes_append] at hf
    have f_x1 : Fixes σ (x1) := by simp only [hf]
    have e_x1 := fix_list f_x1
    have f_x2 : Fixes σ (x2.spelled) := by simp only [hf]
    have e_x2 := cr_CE_conv h x2 f_x2
    simp only [CE_respell_lam, CE_conv_lam, h.cmpOf, h.arithOf, h.signOf, h.numLit, h.cstr, h.cstrOpt, h.overflowOf, h.minus, h.upText, h.dateTimeOf, h.sessionOf, h.isNone, h.isNoneOpt, h.setKindOf, h.frameOf, h.boundOf, h.isDesc, h.isNullsFirst, h.offsetQuery, e_x1, e_x2]
  | .sub x0, hf => by
    simp only [CE_spelled_sub, fixes_append] at hf
    have f_x0 : Fixes σ (x0.spelled) := by simp only [hf]
    have e_x0 := cr_CQ_conv h x0 f_x0
    simp only [CE_respell_sub, CE_conv_sub, h.cmpOf, h.arithOf, h.signOf, h.numLit, h.cstr, h.cstrOpt, h.overflowOf, h.minus, h.upText, h.dateTimeOf, h.sessionOf, h.isNone, h.isNoneOpt, h.setKindOf, h.frameOf, h.boundOf, h.isDesc, h.isNullsFirst, h.offsetQuery, e_x0]
  | .case x0 x1 x2, hf => by
    simp only [CE_spelled_case, fixes_append] at hf
    have f_x0 : Fixes σ (CE.spelledOpt x0) := by simp only [hf]
    have e_x0 := cr_CE_convOpt h x0 f_x0
    have f_x1 : Fixes σ (CWhen.spelleds x1) := by simp only [hf]
    have e_x1 := cr_CWhen_convs h x1 f_x1
    have f_x2 : Fixes σ (CE.spelledOpt x2) := by simp only [hf]
    have e_x2 := cr_CE_convOpt h x2 f_x2
    simp only [CE_respell_case, CE_conv_case, h.cmpOf, h.arithOf, h.signOf, h.numLit, h.cstr, h.cstrOpt, h.overflowOf, h.minus, h.upText, h.dateTimeOf, h.sessionOf, h.isNone, h.isNoneOpt, h.setKindOf, h.frameOf, h.boundOf, h.isDesc, h.isNullsFirst, h.offsetQuery, e_x0, e_x1, e_x2]
  | .cast x0 x1 x2 x3, hf => by
    simp only [CE_spelled_cast, fixes_append] at hf
    have f_x1 : Fixes σ (x1.spelled) := by simp only [hf]
    have e_x1 := cr_CE_conv h x1 f_x1
    have f_x2 : Fixes σ (x2.spelled) := by simp only [hf]
    have e_x2 := cr_CTy_conv h x2 f_x2
    simp only [CE_respell_cast, CE_conv_cast, h.cmpOf, h.arithOf, h.signOf, h.numLit, h.cstr, h.cstrOpt, h.overflowOf, h.minus, h.upText, h.dateTimeOf, h.sessionOf, h.isNone, h.isNoneOpt, h.setKindOf, h.frameOf, h.boundOf, h.isDesc, h.isNullsFirst, h.offsetQuery, e_x1, e_x2]
  | .array x0, hf => by
    simp only [CE_spelled_array, fixes_append] at hf
    have f_x0 : Fixes σ (CE.spelleds x0) := by simp only [hf]
    have e_x0 := cr_CE_convs h x0 f_x0
    simp only [CE_respell_array, CE_conv_array, h.cmpOf, h.arithOf, h.signOf, h.numLit, h.cstr, h.cstrOpt, h.overflowOf, h.minus, h.upText, h.dateTimeOf, h.sessionOf, h.isNone, h.isNoneOpt, h.setKindOf, h.frameOf, h.boundOf, h.isDesc, h.isNullsFirst, h.offsetQuery, e_x0]
  | .subscript x0 x1, hf => by
    simp only [CE_spelled_subscript, fixes_append] at hf
    have f_x0 : Fixes σ (x0.spelled) := by simp only [hf]
    have e_x0 := cr_CE_conv h x0 f_x0
    have f_x1 : Fixes σ (x1.spelled) := by simp only [hf]
    have e_x1 := cr_CE_conv h x1 f_x1
    simp only [CE_respell_subscript, CE_conv_subscript, h.cmpOf, h.arithOf, h.signOf, h.numLit, h.cstr, h.cstrOpt, h.overflowOf, h.minus, h.upText, h.dateTimeOf, h.sessionOf, h.isNone, h.isNoneOpt, h.setKindOf, h.frameOf, h.boundOf, h.isDesc, h.isNullsFirst, h.offsetQuery, e_x0, e_x1]
  | .col x0, hf => by
    simp only [CE_spelled_col, fixes_append] at hf
    have f_x0 : Fixes σ ([x0]) := by simp only [hf]
    have e_x0 := fix_tok f_x0
    simp only [CE_respell_col, CE_conv_col, h.cmpOf, h.arithOf, h.signOf, h.numLit, h.cstr, h.cstrOpt, h.overflowOf, h.minus, h.upText, h.dateTimeOf, h.sessionOf, h.isNone, h.isNoneOpt, h.setKindOf, h.frameOf, h.boundOf, h.isDesc, h.isNullsFirst, h.offsetQuery, e_x0]
  | .deref x0 x1, hf => by
    simp only [CE_spelled_deref, fixes_append] at hf
    have f_x0 : Fixes σ (x0.spelled) := by simp only [hf]
    have e_x0 := cr_CE_conv h x0 f_x0
    have f_x1 : Fixes σ ([x1]) := by simp only [hf]
    have e_x1 := fix_tok f_x1
    simp only [CE_respell_deref, CE_conv_deref, h.cmpOf, h.arithOf, h.signOf, h.numLit, h.cstr, h.cstrOpt, h.overflowOf, h.minus, h.upText, h.dateTimeOf, h.sessionOf, h.isNone, h.isNoneOpt, h.setKindOf, h.frameOf, h.boundOf, h.isDesc, h.isNullsFirst, h.offsetQuery, e_x0, e_x1]
  | .dateTime x0 x1, hf => by
    simp only [CE_spelled_dateTime, fixes_append] at hf
    have f_x1 : Fixes σ (x1.toList) := by simp only [hf]
    have e_x1 := fix_opt f_x1
    simp only [CE_respell_dateTime, CE_conv_dateTime, h.cmpOf, h.arithOf, h.signOf, h.numLit, h.cstr, h.cstrOpt, h.overflowOf, h.minus, h.upText, h.dateTimeOf, h.sessionOf, h.isNone, h.isNoneOpt, h.setKindOf, h.frameOf, h.boundOf, h.isDesc, h.isNullsFirst, h.offsetQuery, e_x1]
  | .session x0, hf => by
    simp only [CE_respell_session, CE_conv_session, h.cmpOf, h.arithOf, h.signOf, h.numLit, h.cstr, h.cstrOpt, h.overflowOf, h.minus, h.upText, h.dateTimeOf, h.sessionOf, h.isNone, h.isNoneOpt, h.setKindOf, h.frameOf, h.boundOf, h.isDesc, h.isNullsFirst, h.offsetQuery]
  | .normalize x0 x1, hf => by
    simp only [CE_spelled_normalize, fixes_append] at hf
    have f_x0 : Fixes σ (x0.spelled) := by simp only [hf]
    have e_x0 := cr_CE_conv h x0 f_x0
    have f_x1 : Fixes σ (x1.toList) := by simp only [hf]
    have e_x1 := fix_opt f_x1
    simp only [CE_respell_normalize, CE_conv_normalize, h.cmpOf, h.arithOf, h.signOf, h.numLit, h.cstr, h.cstrOpt, h.overflowOf, h.minus, h.upText, h.dateTimeOf, h.sessionOf, h.isNone, h.isNoneOpt, h.setKindOf, h.frameOf, h.boundOf, h.isDesc, h.isNullsFirst, h.offsetQuery, e_x0, e_x1]
  | .paren x0, hf => by
    simp only [CE_spelled_paren, fixes_append] at hf
    have f_x0 : Fixes σ (x0.spelled) := by simp only [hf]
    have e_x0 := cr_CE_conv h x0 f_x0
    simp only [CE_respell_paren, CE_conv_paren, h.cmpOf, h.arithOf, h.signOf, h.numLit, h.cstr, h.cstrOpt, h.overflowOf, h.minus, h.upText, h.dateTimeOf, h.sessionOf, h.isNone, h.isNoneOpt, h.setKindOf, h.frameOf, h.boundOf, h.isDesc, h.isNullsFirst, h.offsetQuery, e_x0]
  | .exists_ x0, hf => by
    simp only [CE_spelled_exists_, fixes_append] at hf
    have f_x0 : Fixes σ (x0.spelled) := by simp only [hf]
    have e_x0 := cr_CQ_conv h x0 f_x0
    simp only [CE_respell_exists_, CE_conv_exists_, h.cmpOf, h.arithOf, h.signOf, h.numLit, h.cstr, h.cstrOpt, h.overflowOf, h.minus, h.upText, h.dateTimeOf, h.sessionOf, h.isNone, h.isNoneOpt, h.setKindOf, h.frameOf, h.boundOf, h.isDesc, h.isNullsFirst, h.offsetQuery, e_x0]
  | .position x0 x1, hf => by
    simp only [CE_spelled_position, fixes_append] at hf
    have f_x0 : Fixes σ (x0.spelled) := by simp only [hf]
    have e_x0 := cr_CE_conv h x0 f_x0
    have f_x1 : Fixes σ (x1.spelled) := by simp only [hf]
    have e_x1 := cr_CE_conv h x1 f_x1
    simp only [CE_respell_position, CE_conv_position, h.cmpOf, h.arithOf, h.signOf, h.numLit, h.cstr, h.cstrOpt, h.overflowOf, h.minus, h.upText, h.dateTimeOf, h.sessionOf, h.isNone, h.isNoneOpt, h.setKindOf, h.frameOf, h.boundOf, h.isDesc, h.isNullsFirst, h.offsetQuery, e_x0, e_x1]
  | .substring x0 x1 x2, hf => by
    simp only [CE_spelled_substring, fixes_append] at hf
    have f_x0 : Fixes σ (x0.spelled) := by simp only [hf]
    have e_x0 := cr_CE_conv h x0 f_x0
    have f_x1 : Fixes σ (x1.spelled) := by simp only [hf]
    have e_x1 := cr_CE_conv h x1 f_x1
    have f_x2 : Fixes σ (CE.spelledOpt x2) := by simp only [hf]
    have e_x2 := cr_CE_convOpt h x2 f_x2
    simp only [CE_respell_substring, CE_conv_substring, h.cmpOf, h.arithOf, h.signOf, h.numLit, h.cstr, h.cstrOpt, h.overflowOf, h.minus, h.upText, h.dateTimeOf, h.sessionOf, h.isNone, h.isNoneOpt, h.setKindOf, h.frameOf, h.boundOf, h.isDesc, h.isNullsFirst, h.offsetQuery, e_x0, e_x1, e_x2]
  | .extract x0 x1, hf => by
    simp only [CE_spelled_extract, fixes_append] at hf
    have f_x1 : Fixes σ (x1.spelled) := by simp only [hf]
    have e_x1 := cr_CE_conv h x1 f_x1
    simp only [CE_respell_extract, CE_conv_extract, h.cmpOf, h.arithOf, h.signOf, h.numLit, h.cstr, h.cstrOpt, h.overflowOf, h.minus, h.upText, h.dateTimeOf, h.sessionOf, h.isNone, h.isNoneOpt, h.setKindOf, h.frameOf, h.boundOf, h.isDesc, h.isNullsFirst, h.offsetQuery, e_x1]
    exact h.anyName _
  | .trimFrom x0 x1 x2, hf => by
    simp only [CE_spelled_trimFrom, fixes_append] at hf
    have f_x1 : Fixes σ (CE.spelledOpt x1) := by simp only [hf]
    have e_x1 := cr_CE_convOpt h x1 f_x1
    have f_x2 : Fixes σ (x2.spelled) := by simp only [hf]
    have e_x2 := cr_CE_conv h x2 f_x2
    simp only [CE_respell_trimFrom, CE_conv_trimFrom, h.cmpOf, h.arithOf, h.signOf, h.numLit, h.cstr, h.cstrOpt, h.overflowOf, h.minus, h.upText, h.dateTimeOf, h.sessionOf, h.isNone, h.isNoneOpt, h.setKindOf, h.frameOf, h.boundOf, h.isDesc, h.isNullsFirst, h.offsetQuery, e_x1, e_x2]
  | .trim x0 x1, hf => by
    simp only [CE_spelled_trim, fixes_append] at hf
    have f_x0 : Fixes σ (x0.spelled) := by simp only [hf]
    have e_x0 := cr_CE_conv h x0 f_x0
    have f_x1 : Fixes σ (CE.spelledOpt x1) := by simp only [hf]
    have e_x1 := cr_CE_convOpt h x1 f_x1
    simp only [CE_respell_trim, CE_conv_trim, h.cmpOf, h.arithOf, h.signOf, h.numLit, h.cstr, h.cstrOpt, h.overflowOf, h.minus, h.upText, h.dateTimeOf, h.sessionOf, h.isNone, h.isNoneOpt, h.setKindOf, h.frameOf, h.boundOf, h.isDesc, h.isNullsFirst, h.offsetQuery, e_x0, e_x1]
  | .grouping x0, hf => by
    simp only [CE_respell_grouping, CE_conv_grouping, h.cmpOf, h.arithOf, h.signOf, h.numLit, h.cstr, h.cstrOpt, h.overflowOf, h.minus, h.upText, h.dateTimeOf, h.sessionOf, h.isNone, h.isNoneOpt, h.setKindOf, h.frameOf, h.boundOf, h.isDesc, h.isNullsFirst, h.offsetQuery]
    rw [← List.map_flatten]
    exact h.names _ fun _ _ _ => rfl
theorem cr_CE_convOpt (h : Keeps σ) : ∀ (c : Option CE), Fixes σ (CE.spelledOpt c) → CE.convOpt (c.map (CE.respell σ)) = CE.convOpt c
  | none, _ => rfl
  | some x, hf => by
    have e := cr_CE_conv h x hf
    simp only [Option.map_some, CE_convOpt_some, e]
theorem cr_CE_convs (h : Keeps σ) : ∀ (c : List CE), Fixes σ (CE.spelleds c) → CE.convs (c.map (CE.respell σ)) = CE.convs c
  | [], _ => rfl
  | x :: xs, hf => by
    simp only [CE_spelleds_cons, fixes_append] at hf
    have f_x : Fixes σ (x.spelled) := by simp only [hf]
    have e_x := cr_CE_conv h x f_x
    have f_s : Fixes σ (CE.spelleds xs) := by simp only [hf]
    have e_s := cr_CE_convs h xs f_s
    simp only [List.map_cons, CE_convs_cons, h.cmpOf, h.arithOf, h.signOf, h.numLit, h.cstr, h.cstrOpt, h.overflowOf, h.minus, h.upText, h.dateTimeOf, h.sessionOf, h.isNone, h.isNoneOpt, h.setKindOf, h.frameOf, h.boundOf, h.isDesc, h.isNullsFirst, h.offsetQuery, e_x, e_s]
theorem cr_CWhen_convs (h : Keeps σ) : ∀ (c : List CWhen), Fixes σ (CWhen.spelleds c) → CWhen.convs (c.map (CWhen.respell σ)) = CWhen.convs c
  | [], _ => rfl
  | .mk x0 x1 :: xs, hf => by
    simp only [CWhen_spelleds_cons, CWhen_spelled_mk, fixes_append] at hf
    have f_x0 : Fixes σ (x0.spelled) := by simp only [hf]
    have e_x0 := cr_CE_conv h x0 f_x0
    have f_x1 : Fixes σ (x1.spelled) := by simp only [hf]
    have e_x1 := cr_CE_conv h x1 f_x1
    have f_s : Fixes σ (CWhen.spelleds xs) := by simp only [hf]
    have e_s := cr_CWhen_convs h xs f_s
    simp only [List.map_cons, CWhen_respell_mk, CWhen_convs_cons, h.cmpOf, h.arithOf, h.signOf, h.numLit, h.cstr, h.cstrOpt, h.overflowOf, h.minus, h.upText, h.dateTimeOf, h.sessionOf, h.isNone, h.isNoneOpt, h.setKindOf, h.frameOf, h.boundOf, h.isDesc, h.isNullsFirst, h.offsetQuery, e_x0, e_x1, e_s]
theorem cr_CSort_convs (h : Keeps σ) : ∀ (c : List CSort), Fixes σ (CSort.spelleds c) → CSort.convs (c.map (CSort.respell σ)) = CSort.convs c
  | [], _ => rfl
  | .mk x0 x1 x2 :: xs, hf => by
    simp only [CSort_spelleds_cons, CSort_spelled_mk, fixes_append] at hf
    have f_x0 : Fixes σ (x0.spelled) := by simp only [hf]
    have e_x0 := cr_CE_conv h x0 f_x0
    have f_s : Fixes σ (CSort.spelleds xs) := by simp only [hf]
    have e_s := cr_CSort_convs h xs f_s
    simp only [List.map_cons, CSort_respell_mk, CSort_convs_cons, h.cmpOf, h.arithOf, h.signOf, h.numLit, h.cstr, h.cstrOpt, h.overflowOf, h.minus, h.upText, h.dateTimeOf, h.sessionOf, h.isNone, h.isNoneOpt, h.setKindOf, h.frameOf, h.boundOf, h.isDesc, h.isNullsFirst, h.offsetQuery, e_x0, e_s]
theorem cr_CBound_conv (h : Keeps σ) : ∀ (c : CBound), Fixes σ (c.spelled) → CBound.conv (c.respell σ) = CBound.conv c
  | .unbounded x0, hf => by
    simp only [CBound_respell_unbounded, CBound_conv_unbounded, h.cmpOf, h.arithOf, h.signOf, h.numLit, h.cstr, h.cstrOpt, h.overflowOf, h.minus, h.upText, h.dateTimeOf, h.sessionOf, h.isNone, h.isNoneOpt, h.setKindOf, h.frameOf, h.boundOf, h.isDesc, h.isNullsFirst, h.offsetQuery]
  | .current, hf => by
    rfl
  | .bounded x0 x1, hf => by
    simp only [CBound_spelled_bounded, fixes_append] at hf
    have f_x0 : Fixes σ (x0.spelled) := by simp only [hf]
    have e_x0 := cr_CE_conv h x0 f_x0
    simp only [CBound_respell_bounded, CBound_conv_bounded, h.cmpOf, h.arithOf, h.signOf, h.numLit, h.cstr, h.cstrOpt, h.overflowOf, h.minus, h.upText, h.dateTimeOf, h.sessionOf, h.isNone, h.isNoneOpt, h.setKindOf, h.frameOf, h.boundOf, h.isDesc, h.isNullsFirst, h.offsetQuery, e_x0]
theorem cr_CFrame_conv (h : Keeps σ) : ∀ (c : CFrame), Fixes σ (c.spelled) → CFrame.conv (c.respell σ) = CFrame.conv c
  | .none, hf => by
    rfl
  | .from_ x0 x1, hf => by
    simp only [CFrame_spelled_from_, fixes_append] at hf
    have f_x1 : Fixes σ (x1.spelled) := by simp only [hf]
    have e_x1 := cr_CBound_conv h x1 f_x1
    simp only [CFrame_respell_from_, CFrame_conv_from_, h.cmpOf, h.arithOf, h.signOf, h.numLit, h.cstr, h.cstrOpt, h.overflowOf, h.minus, h.upText, h.dateTimeOf, h.sessionOf, h.isNone, h.isNoneOpt, h.setKindOf, h.frameOf, h.boundOf, h.isDesc, h.isNullsFirst, h.offsetQuery, e_x1]
  | .between x0 x1 x2, hf => by
    simp only [CFrame_spelled_between, fixes_append] at hf
    have f_x1 : Fixes σ (x1.spelled) := by simp only [hf]
    have e_x1 := cr_CBound_conv h x1 f_x1
    have f_x2 : Fixes σ (x2.spelled) := by simp only [hf]
    have e_x2 := cr_CBound_conv h x2 f_x2
    simp only [CFrame_respell_between, CFrame_conv_between, h.cmpOf, h.arithOf, h.signOf, h.numLit, h.cstr, h.cstrOpt, h.overflowOf, h.minus, h.upText, h.dateTimeOf, h.sessionOf, h.isNone, h.isNoneOpt, h.setKindOf, h.frameOf, h.boundOf, h.isDesc, h.isNullsFirst, h.offsetQuery, e_x1, e_x2]
theorem cr_CWin_conv (h : Keeps σ) : ∀ (c : CWin), Fixes σ (c.spelled) → CWin.conv (c.respell σ) = CWin.conv c
  | .ref x0, hf => by
    simp only [CWin_spelled_ref, fixes_append] at hf
    have f_x0 : Fixes σ ([x0]) := by simp only [hf]
    have e_x0 := fix_tok f_x0
    simp only [CWin_respell_ref, CWin_conv_ref, h.cmpOf, h.arithOf, h.signOf, h.numLit, h.cstr, h.cstrOpt, h.overflowOf, h.minus, h.upText, h.dateTimeOf, h.sessionOf, h.isNone, h.isNoneOpt, h.setKindOf, h.frameOf, h.boundOf, h.isDesc, h.isNullsFirst, h.offsetQuery, e_x0]
  | .spec x0 x1 x2 x3, hf => by
    simp only [CWin_spelled_spec, fixes_append] at hf
    have f_x0 : Fixes σ (x0.toList) := by simp only [hf]
    have e_x0 := fix_opt f_x0
    have f_x1 : Fixes σ (CE.spelleds x1) := by simp only [hf]
    have e_x1 := cr_CE_convs h x1 f_x1
    have f_x2 : Fixes σ (CSort.spelleds x2) := by simp only [hf]
    have e_x2 := cr_CSort_convs h x2 f_x2
    have f_x3 : Fixes σ (x3.spelled) := by simp only [hf]
    have e_x3 := cr_CFrame_conv h x3 f_x3
    simp only [CWin_respell_spec, CWin_conv_spec, h.cmpOf, h.arithOf, h.signOf, h.numLit, h.cstr, h.cstrOpt, h.overflowOf, h.minus, h.upText, h.dateTimeOf, h.sessionOf, h.isNone, h.isNoneOpt, h.setKindOf, h.frameOf, h.boundOf, h.isDesc, h.isNullsFirst, h.offsetQuery, e_x0, e_x1, e_x2, e_x3]
theorem cr_CWin_convOpt (h : Keeps σ) : ∀ (c : Option CWin), Fixes σ (CWin.spelledOpt c) → CWin.convOpt (c.map (CWin.respell σ)) = CWin.convOpt c
  | none, _ => rfl
  | some x, hf => by
    have e := cr_CWin_conv h x hf
    simp only [Option.map_some, CWin_convOpt_some, e]
theorem cr_CSet_conv (h : Keeps σ) : ∀ (c : CSet), Fixes σ (c.spelled) → CSet.conv (c.respell σ) = CSet.conv c
  | .paren x0, hf => by
    simp only [CSet_spelled_paren, fixes_append] at hf
    have f_x0 : Fixes σ (CE.spelleds x0) := by simp only [hf]
    have e_x0 := cr_CE_convs h x0 f_x0
    simp only [CSet_respell_paren, CSet_conv_paren, h.cmpOf, h.arithOf, h.signOf, h.numLit, h.cstr, h.cstrOpt, h.overflowOf, h.minus, h.upText, h.dateTimeOf, h.sessionOf, h.isNone, h.isNoneOpt, h.setKindOf, h.frameOf, h.boundOf, h.isDesc, h.isNullsFirst, h.offsetQuery, e_x0]
  | .expr x0, hf => by
    simp only [CSet_spelled_expr, fixes_append] at hf
    have f_x0 : Fixes σ (x0.spelled) := by simp only [hf]
    have e_x0 := cr_CE_conv h x0 f_x0
    simp only [CSet_respell_expr, CSet_conv_expr, h.cmpOf, h.arithOf, h.signOf, h.numLit, h.cstr, h.cstrOpt, h.overflowOf, h.minus, h.upText, h.dateTimeOf, h.sessionOf, h.isNone, h.isNoneOpt, h.setKindOf, h.frameOf, h.boundOf, h.isDesc, h.isNullsFirst, h.offsetQuery, e_x0]
theorem cr_CSet_convs (h : Keeps σ) : ∀ (c : List CSet), Fixes σ (CSet.spelleds c) → CSet.convs (c.map (CSet.respell σ)) = CSet.convs c
  | [], _ => rfl
  | x :: xs, hf => by
    simp only [CSet_spelleds_cons, fixes_append] at hf
    have f_x : Fixes σ (x.spelled) := by simp only [hf]
    have e_x := cr_CSet_conv h x f_x
    have f_s : Fixes σ (CSet.spelleds xs) := by simp only [hf]
    have e_s := cr_CSet_convs h xs f_s
    simp only [List.map_cons, CSet_convs_cons, h.cmpOf, h.arithOf, h.signOf, h.numLit, h.cstr, h.cstrOpt, h.overflowOf, h.minus, h.upText, h.dateTimeOf, h.sessionOf, h.isNone, h.isNoneOpt, h.setKindOf, h.frameOf, h.boundOf, h.isDesc, h.isNullsFirst, h.offsetQuery, e_x, e_s]
theorem cr_CGrp_conv (h : Keeps σ) : ∀ (c : CGrp), Fixes σ (c.spelled) → CGrp.conv (c.respell σ) = CGrp.conv c
  | .single x0, hf => by
    simp only [CGrp_spelled_single, fixes_append] at hf
    have f_x0 : Fixes σ (x0.spelled) := by simp only [hf]
    have e_x0 := cr_CSet_conv h x0 f_x0
    simp only [CGrp_respell_single, CGrp_conv_single, h.cmpOf, h.arithOf, h.signOf, h.numLit, h.cstr, h.cstrOpt, h.overflowOf, h.minus, h.upText, h.dateTimeOf, h.sessionOf, h.isNone, h.isNoneOpt, h.setKindOf, h.frameOf, h.boundOf, h.isDesc, h.isNullsFirst, h.offsetQuery, e_x0]
  | .rollup x0, hf => by
    simp only [CGrp_spelled_rollup, fixes_append] at hf
    have f_x0 : Fixes σ (CE.spelleds x0) := by simp only [hf]
    have e_x0 := cr_CE_convs h x0 f_x0
    simp only [CGrp_respell_rollup, CGrp_conv_rollup, h.cmpOf, h.arithOf, h.signOf, h.numLit, h.cstr, h.cstrOpt, h.overflowOf, h.minus, h.upText, h.dateTimeOf, h.sessionOf, h.isNone, h.isNoneOpt, h.setKindOf, h.frameOf, h.boundOf, h.isDesc, h.isNullsFirst, h.offsetQuery, e_x0]
  | .cube x0, hf => by
    simp only [CGrp_spelled_cube, fixes_append] at hf
    have f_x0 : Fixes σ (CE.spelleds x0) := by simp only [hf]
    have e_x0 := cr_CE_convs h x0 f_x0
    simp only [CGrp_respell_cube, CGrp_conv_cube, h.cmpOf, h.arithOf, h.signOf, h.numLit, h.cstr, h.cstrOpt, h.overflowOf, h.minus, h.upText, h.dateTimeOf, h.sessionOf, h.isNone, h.isNoneOpt, h.setKindOf, h.frameOf, h.boundOf, h.isDesc, h.isNullsFirst, h.offsetQuery, e_x0]
  | .sets x0, hf => by
    simp only [CGrp_spelled_sets, fixes_append] at hf
    have f_x0 : Fixes σ (CSet.spelleds x0) := by simp only [hf]
    have e_x0 := cr_CSet_convs h x0 f_x0
    simp only [CGrp_respell_sets, CGrp_conv_sets, h.cmpOf, h.arithOf, h.signOf, h.numLit, h.cstr, h.cstrOpt, h.overflowOf, h.minus, h.upText, h.dateTimeOf, h.sessionOf, h.isNone, h.isNoneOpt, h.setKindOf, h.frameOf, h.boundOf, h.isDesc, h.isNullsFirst, h.offsetQuery, e_x0]
theorem cr_CGrp_convs (h : Keeps σ) : ∀ (c : List CGrp), Fixes σ (CGrp.spelleds c) → CGrp.convs (c.map (CGrp.respell σ)) = CGrp.convs c
  | [], _ => rfl
  | x :: xs, hf => by
    simp only [CGrp_spelleds_cons, fixes_append] at hf
    have f_x : Fixes σ (x.spelled) := by simp only [hf]
    have e_x := cr_CGrp_conv h x f_x
    have f_s : Fixes σ (CGrp.spelleds xs) := by simp only [hf]
    have e_s := cr_CGrp_convs h xs f_s
    simp only [List.map_cons, CGrp_convs_cons, h.cmpOf, h.arithOf, h.signOf, h.numLit, h.cstr, h.cstrOpt, h.overflowOf, h.minus, h.upText, h.dateTimeOf, h.sessionOf, h.isNone, h.isNoneOpt, h.setKindOf, h.frameOf, h.boundOf, h.isDesc, h.isNullsFirst, h.offsetQuery, e_x, e_s]
theorem cr_CItem_conv (h : Keeps σ) : ∀ (c : CItem), Fixes σ (c.spelled) → CItem.conv (c.respell σ) = CItem.conv c
  | .expr x0 x1 x2, hf => by
    simp only [CItem_spelled_expr, fixes_append] at hf
    have f_x0 : Fixes σ (x0.spelled) := by simp only [hf]
    have e_x0 := cr_CE_conv h x0 f_x0
    have f_x2 : Fixes σ (x2.toList) := by simp only [hf]
    have e_x2 := fix_opt f_x2
    simp only [CItem_respell_expr, CItem_conv_expr, h.cmpOf, h.arithOf, h.signOf, h.numLit, h.cstr, h.cstrOpt, h.overflowOf, h.minus, h.upText, h.dateTimeOf, h.sessionOf, h.isNone, h.isNoneOpt, h.setKindOf, h.frameOf, h.boundOf, h.isDesc, h.isNullsFirst, h.offsetQuery, e_x0, e_x2]
  | .allOf x0 x1, hf => by
    simp only [CItem_spelled_allOf, fixes_append] at hf
    have f_x0 : Fixes σ (x0.spelled) := by simp only [hf]
    have e_x0 := cr_CE_conv h x0 f_x0
    have f_x1 : Fixes σ (x1) := by simp only [hf]
    have e_x1 := fix_list f_x1
    simp only [CItem_respell_allOf, CItem_conv_allOf, h.cmpOf, h.arithOf, h.signOf, h.numLit, h.cstr, h.cstrOpt, h.overflowOf, h.minus, h.upText, h.dateTimeOf, h.sessionOf, h.isNone, h.isNoneOpt, h.setKindOf, h.frameOf, h.boundOf, h.isDesc, h.isNullsFirst, h.offsetQuery, e_x0, e_x1]
  | .all, hf => by
    rfl
theorem cr_CItem_convs (h : Keeps σ) : ∀ (c : List CItem), Fixes σ (CItem.spelleds c) → CItem.convs (c.map (CItem.respell σ)) = CItem.convs c
  | [], _ => rfl
  | x :: xs, hf => by
    simp only [CItem_spelleds_cons, fixes_append] at hf
    have f_x : Fixes σ (x.spelled) := by simp only [hf]
    have e_x := cr_CItem_conv h x f_x
    have f_s : Fixes σ (CItem.spelleds xs) := by simp only [hf]
    have e_s := cr_CItem_convs h xs f_s
    simp only [List.map_cons, CItem_convs_cons, h.cmpOf, h.arithOf, h.signOf, h.numLit, h.cstr, h.cstrOpt, h.overflowOf, h.minus, h.upText, h.dateTimeOf, h.sessionOf, h.isNone, h.isNoneOpt, h.setKindOf, h.frameOf, h.boundOf, h.isDesc, h.isNullsFirst, h.offsetQuery, e_x, e_s]
theorem cr_CWinDef_convs (h : Keeps σ) : ∀ (c : List CWinDef), Fixes σ (CWinDef.spelleds c) → CWinDef.convs (c.map (CWinDef.respell σ)) = CWinDef.convs c
  | [], _ => rfl
  | .mk x0 x1 :: xs, hf => by
    simp only [CWinDef_spelleds_cons, CWinDef_spelled_mk, fixes_append] at hf
    have f_x0 : Fixes σ ([x0]) := by simp only [hf]
    have e_x0 := fix_tok f_x0
    have f_x1 : Fixes σ (x1.spelled) := by simp only [hf]
    have e_x1 := cr_CWin_conv h x1 f_x1
    have f_s : Fixes σ (CWinDef.spelleds xs) := by simp only [hf]
    have e_s := cr_CWinDef_convs h xs f_s
    simp only [List.map_cons, CWinDef_respell_mk, CWinDef_convs_cons, h.cmpOf, h.arithOf, h.signOf, h.numLit, h.cstr, h.cstrOpt, h.overflowOf, h.minus, h.upText, h.dateTimeOf, h.sessionOf, h.isNone, h.isNoneOpt, h.setKindOf, h.frameOf, h.boundOf, h.isDesc, h.isNullsFirst, h.offsetQuery, e_x0, e_x1, e_s]
theorem cr_CQ_conv (h : Keeps σ) : ∀ (c : CQ), Fixes σ (c.spelled) → CQ.conv (c.respell σ) = CQ.conv c
  | .mk x0 x1 x2, hf => by
    simp only [CQ_spelled_mk, fixes_append] at hf
    have f_x1 : Fixes σ (CNamed.spelleds x1) := by simp only [hf]
    have e_x1 := cr_CNamed_convs h x1 f_x1
    have f_x2 : Fixes σ (x2.spelled) := by simp only [hf]
    have e_x2 := cr_CQN_conv h x2 f_x2
    simp only [CQ_respell_mk, CQ_conv_mk, h.cmpOf, h.arithOf, h.signOf, h.numLit, h.cstr, h.cstrOpt, h.overflowOf, h.minus, h.upText, h.dateTimeOf, h.sessionOf, h.isNone, h.isNoneOpt, h.setKindOf, h.frameOf, h.boundOf, h.isDesc, h.isNullsFirst, h.offsetQuery, e_x1, e_x2]
theorem cr_CNamed_convs (h : Keeps σ) : ∀ (c : List CNamed), Fixes σ (CNamed.spelleds c) → CNamed.convs (c.map (CNamed.respell σ)) = CNamed.convs c
  | [], _ => rfl
  | .mk x0 x1 x2 :: xs, hf => by
    simp only [CNamed_spelleds_cons, CNamed_spelled_mk, fixes_append] at hf
    have f_x0 : Fixes σ ([x0]) := by simp only [hf]
    have e_x0 := fix_tok f_x0
    have f_x1 : Fixes σ (x1) := by simp only [hf]
    have e_x1 := fix_list f_x1
    have f_x2 : Fixes σ (x2.spelled) := by simp only [hf]
    have e_x2 := cr_CQ_conv h x2 f_x2
    have f_s : Fixes σ (CNamed.spelleds xs) := by simp only [hf]
    have e_s := cr_CNamed_convs h xs f_s
    simp only [List.map_cons, CNamed_respell_mk, CNamed_convs_cons, h.cmpOf, h.arithOf, h.signOf, h.numLit, h.cstr, h.cstrOpt, h.overflowOf, h.minus, h.upText, h.dateTimeOf, h.sessionOf, h.isNone, h.isNoneOpt, h.setKindOf, h.frameOf, h.boundOf, h.isDesc, h.isNullsFirst, h.offsetQuery, e_x0, e_x1, e_x2, e_s]
theorem cr_CQN_conv (h : Keeps σ) : ∀ (c : CQN), Fixes σ (c.spelled) → CQN.conv (c.respell σ) = CQN.conv c
  | .mk x0 x1 x2 x3, hf => by
    simp only [CQN_spelled_mk, fixes_append] at hf
    have f_x0 : Fixes σ (x0.spelled) := by simp only [hf]
    have e_x0 := cr_CQT_conv h x0 f_x0
    have f_x1 : Fixes σ (CSort.spelleds x1) := by simp only [hf]
    have e_x1 := cr_CSort_convs h x1 f_x1
    have f_x3 : Fixes σ (x3.spelled) := by simp only [hf]
    have e_x3 := limit_respell h x3 f_x3
    simp only [CQN_respell_mk, CQN_conv_mk, h.cmpOf, h.arithOf, h.signOf, h.numLit, h.cstr, h.cstrOpt, h.overflowOf, h.minus, h.upText, h.dateTimeOf, h.sessionOf, h.isNone, h.isNoneOpt, h.setKindOf, h.frameOf, h.boundOf, h.isDesc, h.isNullsFirst, h.offsetQuery, e_x0, e_x1, e_x3]
theorem cr_CQT_conv (h : Keeps σ) : ∀ (c : CQT), Fixes σ (c.spelled) → CQT.conv (c.respell σ) = CQT.conv c
  | .set x0 x1 x2 x3, hf => by
    simp only [CQT_spelled_set, fixes_append] at hf
    have f_x1 : Fixes σ (x1.toList) := by simp only [hf]
    have e_x1 := fix_opt f_x1
    have f_x2 : Fixes σ (x2.spelled) := by simp only [hf]
    have e_x2 := cr_CQT_conv h x2 f_x2
    have f_x3 : Fixes σ (x3.spelled) := by simp only [hf]
    have e_x3 := cr_CQT_conv h x3 f_x3
    simp only [CQT_respell_set, CQT_conv_set, h.cmpOf, h.arithOf, h.signOf, h.numLit, h.cstr, h.cstrOpt, h.overflowOf, h.minus, h.upText, h.dateTimeOf, h.sessionOf, h.isNone, h.isNoneOpt, h.setKindOf, h.frameOf, h.boundOf, h.isDesc, h.isNullsFirst, h.offsetQuery, e_x1, e_x2, e_x3]
  | .spec x0 x1 x2 x3 x4 x5 x6 x7, hf => by
    simp only [CQT_spelled_spec, fixes_append] at hf
    have f_x0 : Fixes σ (x0.toList) := by simp only [hf]
    have e_x0 := fix_opt f_x0
    have f_x1 : Fixes σ (CItem.spelleds x1) := by simp only [hf]
    have e_x1 := cr_CItem_convs h x1 f_x1
    have f_x2 : Fixes σ (CR.spelleds x2) := by simp only [hf]
    have e_x2 := cr_CR_convs h x2 f_x2
    have f_x3 : Fixes σ (CE.spelledOpt x3) := by simp only [hf]
    have e_x3 := cr_CE_convOpt h x3 f_x3
    have f_x4 : Fixes σ (x4.toList) := by simp only [hf]
    have e_x4 := fix_opt f_x4
    have f_x5 : Fixes σ (CGrp.spelleds x5) := by simp only [hf]
    have e_x5 := cr_CGrp_convs h x5 f_x5
    have f_x6 : Fixes σ (CE.spelledOpt x6) := by simp only [hf]
    have e_x6 := cr_CE_convOpt h x6 f_x6
    have f_x7 : Fixes σ (CWinDef.spelleds x7) := by simp only [hf]
    have e_x7 := cr_CWinDef_convs h x7 f_x7
    simp only [CQT_respell_spec, CQT_conv_spec, h.cmpOf, h.arithOf, h.signOf, h.numLit, h.cstr, h.cstrOpt, h.overflowOf, h.minus, h.upText, h.dateTimeOf, h.sessionOf, h.isNone, h.isNoneOpt, h.setKindOf, h.frameOf, h.boundOf, h.isDesc, h.isNullsFirst, h.offsetQuery, e_x0, e_x1, e_x2, e_x3, e_x4, e_x5, e_x6, e_x7]
  | .table x0, hf => by
    simp only [CQT_spelled_table, fixes_append] at hf
    have f_x0 : Fixes σ (x0) := by simp only [hf]
    have e_x0 := fix_list f_x0
    simp only [CQT_respell_table, CQT_conv_table, h.cmpOf, h.arithOf, h.signOf, h.numLit, h.cstr, h.cstrOpt, h.overflowOf, h.minus, h.upText, h.dateTimeOf, h.sessionOf, h.isNone, h.isNoneOpt, h.setKindOf, h.frameOf, h.boundOf, h.isDesc, h.isNullsFirst, h.offsetQuery, e_x0]
  | .values x0, hf => by
    simp only [CQT_spelled_values, fixes_append] at hf
    have f_x0 : Fixes σ (CE.spelleds x0) := by simp only [hf]
    have e_x0 := cr_CE_convs h x0 f_x0
    simp only [CQT_respell_values, CQT_conv_values, h.cmpOf, h.arithOf, h.signOf, h.numLit, h.cstr, h.cstrOpt, h.overflowOf, h.minus, h.upText, h.dateTimeOf, h.sessionOf, h.isNone, h.isNoneOpt, h.setKindOf, h.frameOf, h.boundOf, h.isDesc, h.isNullsFirst, h.offsetQuery, e_x0]
  | .sub x0, hf => by
    simp only [CQT_spelled_sub, fixes_append] at hf
    have f_x0 : Fixes σ (x0.spelled) := by simp only [hf]
    have e_x0 := cr_CQN_conv h x0 f_x0
    simp only [CQT_respell_sub, CQT_conv_sub, h.cmpOf, h.arithOf, h.signOf, h.numLit, h.cstr, h.cstrOpt, h.overflowOf, h.minus, h.upText, h.dateTimeOf, h.sessionOf, h.isNone, h.isNoneOpt, h.setKindOf, h.frameOf, h.boundOf, h.isDesc, h.isNullsFirst, h.offsetQuery, e_x0]
theorem cr_CR_conv (h : Keeps σ) : ∀ (c : CR), Fixes σ (c.spelled) → CR.conv (c.respell σ) = CR.conv c
  | .cross x0 x1, hf => by
    simp only [CR_spelled_cross, fixes_append] at hf
    have f_x0 : Fixes σ (x0.spelled) := by simp only [hf]
    have e_x0 := cr_CR_conv h x0 f_x0
    have f_x1 : Fixes σ (x1.spelled) := by simp only [hf]
    have e_x1 := cr_CR_conv h x1 f_x1
    simp only [CR_respell_cross, CR_conv_cross, h.cmpOf, h.arithOf, h.signOf, h.numLit, h.cstr, h.cstrOpt, h.overflowOf, h.minus, h.upText, h.dateTimeOf, h.sessionOf, h.isNone, h.isNoneOpt, h.setKindOf, h.frameOf, h.boundOf, h.isDesc, h.isNullsFirst, h.offsetQuery, e_x0, e_x1]
  | .join x0 x1 x2 x3, hf => by
    simp only [CR_spelled_join, fixes_append] at hf
    have f_x0 : Fixes σ (x0.spelled) := by simp only [hf]
    have e_x0 := cr_CR_conv h x0 f_x0
    have f_x2 : Fixes σ (x2.spelled) := by simp only [hf]
    have e_x2 := cr_CR_conv h x2 f_x2
    have f_x3 : Fixes σ (x3.spelled) := by simp only [hf]
    have e_x3 := cr_CCrit_conv h x3 f_x3
    simp only [CR_respell_join, CR_conv_join, h.cmpOf, h.arithOf, h.signOf, h.numLit, h.cstr, h.cstrOpt, h.overflowOf, h.minus, h.upText, h.dateTimeOf, h.sessionOf, h.isNone, h.isNoneOpt, h.setKindOf, h.frameOf, h.boundOf, h.isDesc, h.isNullsFirst, h.offsetQuery, e_x0, e_x2, e_x3]
  | .natural x0 x1 x2, hf => by
    simp only [CR_spelled_natural, fixes_append] at hf
    have f_x0 : Fixes σ (x0.spelled) := by simp only [hf]
    have e_x0 := cr_CR_conv h x0 f_x0
    have f_x2 : Fixes σ (x2.spelled) := by simp only [hf]
    have e_x2 := cr_CR_conv h x2 f_x2
    simp only [CR_respell_natural, CR_conv_natural, h.cmpOf, h.arithOf, h.signOf, h.numLit, h.cstr, h.cstrOpt, h.overflowOf, h.minus, h.upText, h.dateTimeOf, h.sessionOf, h.isNone, h.isNoneOpt, h.setKindOf, h.frameOf, h.boundOf, h.isDesc, h.isNullsFirst, h.offsetQuery, e_x0, e_x2]
  | .sample x0 x1 x2, hf => by
    simp only [CR_spelled_sample, fixes_append] at hf
    have f_x0 : Fixes σ (x0.spelled) := by simp only [hf]
    have e_x0 := cr_CR_conv h x0 f_x0
    have f_x1 : Fixes σ ([x1]) := by simp only [hf]
    have e_x1 := fix_tok f_x1
    have f_x2 : Fixes σ (x2.spelled) := by simp only [hf]
    have e_x2 := cr_CE_conv h x2 f_x2
    simp only [CR_respell_sample, CR_conv_sample, h.cmpOf, h.arithOf, h.signOf, h.numLit, h.cstr, h.cstrOpt, h.overflowOf, h.minus, h.upText, h.dateTimeOf, h.sessionOf, h.isNone, h.isNoneOpt, h.setKindOf, h.frameOf, h.boundOf, h.isDesc, h.isNullsFirst, h.offsetQuery, e_x0, e_x1, e_x2]
  | .alias x0 x1 x2 x3, hf => by
    simp only [CR_spelled_alias, fixes_append] at hf
    have f_x0 : Fixes σ (x0.spelled) := by simp only [hf]
    have e_x0 := cr_CR_conv h x0 f_x0
    have f_x2 : Fixes σ ([x2]) := by simp only [hf]
    have e_x2 := fix_tok f_x2
    have f_x3 : Fixes σ (x3) := by simp only [hf]
    have e_x3 := fix_list f_x3
    simp only [CR_respell_alias, CR_conv_alias, h.cmpOf, h.arithOf, h.signOf, h.numLit, h.cstr, h.cstrOpt, h.overflowOf, h.minus, h.upText, h.dateTimeOf, h.sessionOf, h.isNone, h.isNoneOpt, h.setKindOf, h.frameOf, h.boundOf, h.isDesc, h.isNullsFirst, h.offsetQuery, e_x0, e_x2, e_x3]
  | .table x0, hf => by
    simp only [CR_spelled_table, fixes_append] at hf
    have f_x0 : Fixes σ (x0) := by simp only [hf]
    have e_x0 := fix_list f_x0
    simp only [CR_respell_table, CR_conv_table, h.cmpOf, h.arithOf, h.signOf, h.numLit, h.cstr, h.cstrOpt, h.overflowOf, h.minus, h.upText, h.dateTimeOf, h.sessionOf, h.isNone, h.isNoneOpt, h.setKindOf, h.frameOf, h.boundOf, h.isDesc, h.isNullsFirst, h.offsetQuery, e_x0]
  | .sub x0, hf => by
    simp only [CR_spelled_sub, fixes_append] at hf
    have f_x0 : Fixes σ (x0.spelled) := by simp only [hf]
    have e_x0 := cr_CQ_conv h x0 f_x0
    simp only [CR_respell_sub, CR_conv_sub, h.cmpOf, h.arithOf, h.signOf, h.numLit, h.cstr, h.cstrOpt, h.overflowOf, h.minus, h.upText, h.dateTimeOf, h.sessionOf, h.isNone, h.isNoneOpt, h.setKindOf, h.frameOf, h.boundOf, h.isDesc, h.isNullsFirst, h.offsetQuery, e_x0]
  | .unnest x0 x1, hf => by
    simp only [CR_spelled_unnest, fixes_append] at hf
    have f_x0 : Fixes σ (CE.spelleds x0) := by simp only [hf]
    have e_x0 := cr_CE_convs h x0 f_x0
    simp only [CR_respell_unnest, CR_conv_unnest, h.cmpOf, h.arithOf, h.signOf, h.numLit, h.cstr, h.cstrOpt, h.overflowOf, h.minus, h.upText, h.dateTimeOf, h.sessionOf, h.isNone, h.isNoneOpt, h.setKindOf, h.frameOf, h.boundOf, h.isDesc, h.isNullsFirst, h.offsetQuery, e_x0]
  | .lateral x0, hf => by
    simp only [CR_spelled_lateral, fixes_append] at hf
    have f_x0 : Fixes σ (x0.spelled) := by simp only [hf]
    have e_x0 := cr_CQ_conv h x0 f_x0
    simp only [CR_respell_lateral, CR_conv_lateral, h.cmpOf, h.arithOf, h.signOf, h.numLit, h.cstr, h.cstrOpt, h.overflowOf, h.minus, h.upText, h.dateTimeOf, h.sessionOf, h.isNone, h.isNoneOpt, h.setKindOf, h.frameOf, h.boundOf, h.isDesc, h.isNullsFirst, h.offsetQuery, e_x0]
  | .paren x0, hf => by
    simp only [CR_spelled_paren, fixes_append] at hf
    have f_x0 : Fixes σ (x0.spelled) := by simp only [hf]
    have e_x0 := cr_CR_conv h x0 f_x0
    simp only [CR_respell_paren, CR_conv_paren, h.cmpOf, h.arithOf, h.signOf, h.numLit, h.cstr, h.cstrOpt, h.overflowOf, h.minus, h.upText, h.dateTimeOf, h.sessionOf, h.isNone, h.isNoneOpt, h.setKindOf, h.frameOf, h.boundOf, h.isDesc, h.isNullsFirst, h.offsetQuery, e_x0]
theorem cr_CR_convs (h : Keeps σ) : ∀ (c : List CR), Fixes σ (CR.spelleds c) → CR.convs (c.map (CR.respell σ)) = CR.convs c
  | [], _ => rfl
  | x :: xs, hf => by
    simp only [CR_spelleds_cons, fixes_append] at hf
    have f_x : Fixes σ (x.spelled) := by simp only [hf]
    have e_x := cr_CR_conv h x f_x
    have f_s : Fixes σ (CR.spelleds xs) := by simp only [hf]
    have e_s := cr_CR_convs h xs f_s
    simp only [List.map_cons, CR_convs_cons, h.cmpOf, h.arithOf, h.signOf, h.numLit, h.cstr, h.cstrOpt, h.overflowOf, h.minus, h.upText, h.dateTimeOf, h.sessionOf, h.isNone, h.isNoneOpt, h.setKindOf, h.frameOf, h.boundOf, h.isDesc, h.isNullsFirst, h.offsetQuery, e_x, e_s]
theorem cr_CCrit_conv (h : Keeps σ) : ∀ (c : CCrit), Fixes σ (c.spelled) → CCrit.conv (c.respell σ) = CCrit.conv c
  | .on x0, hf => by
    simp only [CCrit_spelled_on, fixes_append] at hf
    have f_x0 : Fixes σ (x0.spelled) := by simp only [hf]
    have e_x0 := cr_CE_conv h x0 f_x0
    simp only [CCrit_respell_on, CCrit_conv_on, h.cmpOf, h.arithOf, h.signOf, h.numLit, h.cstr, h.cstrOpt, h.overflowOf, h.minus, h.upText, h.dateTimeOf, h.sessionOf, h.isNone, h.isNoneOpt, h.setKindOf, h.frameOf, h.boundOf, h.isDesc, h.isNullsFirst, h.offsetQuery, e_x0]
  | .using x0, hf => by
    simp only [CCrit_spelled_using, fixes_append] at hf
    have f_x0 : Fixes σ (x0) := by simp only [hf]
    have e_x0 := fix_list f_x0
    simp only [CCrit_respell_using, CCrit_conv_using, h.cmpOf, h.arithOf, h.signOf, h.numLit, h.cstr, h.cstrOpt, h.overflowOf, h.minus, h.upText, h.dateTimeOf, h.sessionOf, h.isNone, h.isNoneOpt, h.setKindOf, h.frameOf, h.boundOf, h.isDesc, h.isNullsFirst, h.offsetQuery, e_x0]
end

end Treeno
