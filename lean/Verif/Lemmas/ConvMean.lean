import Verif.Lemmas.Dropped
import Verif.Props.SchemaProps
import Verif.Lemmas.KeptEqs
import Verif.Lemmas.CMeanEqs
import Verif.Lemmas.MeanEqs
import Verif.Lemmas.ConvEqs
import Verif.Lemmas.RereadMean
import Verif.Lemmas.Unicode
import Verif.Lemmas.SpecialCalls
/-!
# Converting a parse tree keeps its meaning
-/
namespace Treeno
open Spec

variable {M : Model}

theorem build_inv {x y : Expr} (h : x.build = .ok y) : y = x := by
  obtain ⟨t, _, h⟩ := bind_ok h
  exact (Except.ok.inj h).symm
theorem qbuild_inv {x y : Query} (h : x.build = .ok y) : y = x := by
  obtain ⟨t, _, h⟩ := bind_ok h
  exact (Except.ok.inj h).symm
theorem rbuild_inv {x y : Rel} (h : x.build = .ok y) : y = x := by
  obtain ⟨t, _, h⟩ := bind_ok h
  exact (Except.ok.inj h).symm
theorem gbuild_inv {x y : Grp} (h : x.build = .ok y) : y = x := by
  obtain ⟨t, _, h⟩ := bind_ok h
  exact (Except.ok.inj h).symm

/-- A time zone is read as an interval. -/
theorem zone_inv {z : CE} {e : Expr} (h : zoneOf z = .ok e) : ∃ v f t, e = .interval v f t := by
  unfold zoneOf at h
  split at h
  · obtain ⟨_, _, h⟩ := bind_ok h
    exact ⟨_, _, _, build_inv h⟩
  · exact nomatch h

theorem noneIs_inv {α} {e : Err} {x : Option α} {a : α} (h : noneIs e x = .ok a) : x = some a := by
  cases x with
  | none => exact nomatch h
  | some b => exact congrArg some (Except.ok.inj h)

theorem plainly {q : Char} {s : Str} (h : plainlyQuoted q s = true) : stripC q s = inner s ∧ undouble q (inner s) = inner s := by
  unfold plainlyQuoted at h
  simp only [Bool.and_eq_true, beq_iff_eq, Bool.not_eq_true', List.contains_eq_mem, decide_eq_false_iff_not] at h
  refine ⟨?_, undouble_none q _ h.2⟩
  conv => lhs; rw [h.1]
  exact stripC_quoted q _ h.2

theorem name_mean {t : Tok} {s : Str} (hk : keptName t = true) (h : identText t = .ok s) : s = nameOf t := by
  unfold keptName at hk
  unfold identText at h
  unfold nameOf
  cases hkind : t.kind with
  | quoted =>
    rw [hkind] at h hk
    have hp := plainly (by simpa using hk)
    rw [hp.2]
    exact (Except.ok.inj h).symm.trans hp.1
  | backquoted => rw [hkind] at h; exact nomatch h
  | digitIdent => rw [hkind] at h; exact nomatch h
  | _ => rw [hkind] at h; exact (Except.ok.inj h).symm

theorem names_mean : ∀ {ts : List Tok} {ss : List Str}, ts.all keptName = true → identTexts ts = .ok ss → ss = ts.map nameOf
  | [], _, _, h => (Except.ok.inj h).symm
  | t :: ts, ss, hk, h => by
    rw [List.all_cons, Bool.and_eq_true] at hk
    obtain ⟨s, hs, h⟩ := bind_ok (h : (identText t >>= _) = _)
    obtain ⟨r, hr, h⟩ := bind_ok h
    rw [← Except.ok.inj h, name_mean hk.1 hs, names_mean hk.2 hr]; rfl

theorem optname_mean {t : Option Tok} {s : Option Str} (hk : keptOptName t = true) (h : identOpt t = .ok s) : s = t.map nameOf := by
  cases t with
  | none => exact (Except.ok.inj h).symm
  | some t =>
    obtain ⟨x, hx, h⟩ := bind_ok (h : (identText t >>= _) = _)
    rw [← Except.ok.inj h, name_mean hk hx]; rfl

theorem truthy_self {s : Str} (h : s.isEmpty = false) : truthy (some s) = some s := by
  cases s with
  | nil => exact nomatch h
  | cons c s => rfl

theorem prefix_mean {t : Option Tok} {s : Option Str} (hk : keptPrefix t = true) (h : identOpt t = .ok s) :
    s = t.map nameOf ∧ truthy s = t.map nameOf := by
  cases t with
  | none => rw [← Except.ok.inj h]; exact ⟨rfl, rfl⟩
  | some t =>
    have hk : (keptName t && !(nameOf t).isEmpty) = true := hk
    rw [Bool.and_eq_true] at hk
    obtain ⟨x, hx, h⟩ := bind_ok (h : (identText t >>= _) = _)
    rw [← Except.ok.inj h, name_mean hk.1 hx]
    exact ⟨rfl, truthy_self (by simpa using hk.2)⟩

theorem escape_mean {e : Option Tok} {x : Str} (hk : keptEscape e = true) (h : escapeText e = .ok x) :
    x = [escapeChar e] ∧ escapeChar e ≠ '\'' := by
  cases e with
  | none => exact ⟨(Except.ok.inj h).symm, by decide⟩
  | some t =>
    have hk : (plainlyQuoted '\'' t.text && (inner t.text).length == 1) = true := hk
    rw [Bool.and_eq_true] at hk
    have h : stringText t = .ok x := h
    unfold stringText at h
    have hp := plainly (q := '\'') (s := t.text) hk.1
    cases hkind : t.kind with
    | str =>
      rw [hkind] at h
      have hx : x = inner t.text := (Except.ok.inj h).symm.trans hp.1
      have hq : '\'' ∉ inner t.text := by
        have := hk.1
        unfold plainlyQuoted at this
        rw [Bool.and_eq_true] at this
        simpa using this.2
      show x = [(undouble '\'' (inner t.text)).headD '\\'] ∧ (undouble '\'' (inner t.text)).headD '\\' ≠ '\''
      rw [hp.2]
      match hi : inner t.text, hk.2 with
      | [c], _ =>
        refine ⟨by rw [hx, hi]; rfl, fun hc => hq ?_⟩
        rw [hi]
        exact List.mem_singleton.2 (Eq.symm hc)
      | [], h => exact nomatch h
      | _ :: _ :: _, h => simp at h
    | _ => rw [hkind] at h; exact nomatch h

theorem unicode_mean {t : Tok} {e : Option Tok} {s : Str} (h : unicodeText t e = .ok s) (h1 : t.text = 'U' :: '&' :: t.text.drop 2)
    (h2 : plainlyQuoted '\'' (t.text.drop 2) = true) (h3 : keptEscape e = true)
    (h4 : wellWritten (escapeChar e) 0 (inner (t.text.drop 2)) = true) :
    s = decoded (escapeChar e) 0 (undouble '\'' (inner (t.text.drop 2))) := by
  have hp := plainly h2
  have hq : t.text.drop 2 = '\'' :: (inner (t.text.drop 2) ++ ['\'']) ∧ '\'' ∉ inner (t.text.drop 2) := by
    unfold plainlyQuoted at h2
    rw [Bool.and_eq_true] at h2
    exact ⟨by simpa using h2.1, by simpa using h2.2⟩
  rw [hp.2]
  cases hkind : t.kind with
  | ustr =>
    have ht : t = ustrTok (inner (t.text.drop 2)) := by
      cases t with
      | mk k x =>
        have hkind : k = .ustr := hkind
        subst hkind
        show (⟨.ustr, x⟩ : Tok) = ⟨.ustr, 'U' :: '&' :: '\'' :: (inner (x.drop 2) ++ ['\''])⟩
        congr 1
        exact Eq.trans h1 (by rw [← hq.1])
    cases he : escapeText e with
    | error x => unfold unicodeText at h; rw [hkind, he] at h; exact nomatch h
    | ok x =>
      obtain ⟨hx, hne⟩ := escape_mean h3 he
      rw [hx] at he
      obtain ⟨ps, g1, g2, g3⟩ := pieces_of_wellWritten (escapeChar e) _ _ (Nat.le_refl _) hq.2 h4
      have := unicodeText_pieces he hne ps g1
      rw [← g2, ← ht, h] at this
      rw [g3]
      exact Except.ok.inj this
  | _ => unfold unicodeText at h; rw [hkind] at h; exact nomatch h

theorem str_mean {t : CStr} {s : Str} (hk : keptStr t = true) (h : t.conv = .ok s) : s = stringOf t := by
  cases t with
  | unicode t e =>
    have hk : (t.text == 'U' :: '&' :: t.text.drop 2 && plainlyQuoted '\'' (t.text.drop 2) && keptEscape e &&
      wellWritten (escapeChar e) 0 (inner (t.text.drop 2))) = true := hk
    simp only [Bool.and_eq_true] at hk
    obtain ⟨⟨⟨h1, h2⟩, h3⟩, h4⟩ := hk
    exact unicode_mean h (by simpa using h1) h2 h3 h4
  | basic t =>
    have h : stringText t = .ok s := h
    unfold stringText at h
    have hp := plainly (q := '\'') (s := t.text) hk
    cases hkind : t.kind with
    | str =>
      rw [hkind] at h
      show s = undouble '\'' (inner t.text)
      rw [hp.2]
      exact (Except.ok.inj h).symm.trans hp.1
    | _ => rw [hkind] at h; exact nomatch h

theorem optstr_mean {t : Option CStr} {s : Option Str} (hk : keptOptStr t = true) (h : CStr.convOpt t = .ok s) : s = t.map stringOf := by
  cases t with
  | none => exact (Except.ok.inj h).symm
  | some t =>
    obtain ⟨x, hx, h⟩ := bind_ok (h : (t.conv >>= _) = _)
    rw [← Except.ok.inj h, str_mean hk hx]; rfl

theorem overflow_kept {t : Option COverflow} {s : Option (Str × Bool)} (hk : keptOverflow t = true) (h : overflowOf t = .ok s) :
    s = overflowMeaning t := by
  rcases t with _ | (_ | ⟨_ | f, w⟩)
  · exact (Except.ok.inj h).symm
  · exact (Except.ok.inj h).symm
  · exact (Except.ok.inj h).symm
  · obtain ⟨x, hx, h⟩ := bind_ok (h : (f.conv >>= _) = _)
    rw [← Except.ok.inj h, str_mean hk hx]; rfl

theorem quant_mean {d b : Bool} {t : Option Tok} (h : quantOf d t = .ok b) : b = quantMeaning d t := by
  cases t with
  | none => exact (Except.ok.inj h).symm
  | some t =>
    have h : (if t.text = c% "DISTINCT" then .ok true else if t.text = c% "ALL" then .ok false else .error Err.keyError) = Except.ok b := h
    show b = decide (upper t.text = c% "DISTINCT")
    by_cases h1 : t.text = c% "DISTINCT"
    · rw [if_pos h1] at h; rw [← Except.ok.inj h, h1]; decide +kernel
    · rw [if_neg h1] at h
      by_cases h2 : t.text = c% "ALL"
      · rw [if_pos h2] at h; rw [← Except.ok.inj h, h2]; decide +kernel
      · rw [if_neg h2] at h; exact nomatch h

theorem cmp_mean {t : Tok} {o : BinOp} (h : cmpOf t = .ok o) (a b : M.D) : Model.binary o a b = compared t a b := by
  unfold cmpOf at h
  unfold compared
  by_cases h1 : t.text = c% "="
  · rw [if_pos h1] at h ⊢; rw [← Except.ok.inj h]
  rw [if_neg h1] at h ⊢
  by_cases h2 : t.text = c% ">"
  · rw [if_pos h2] at h; rw [← Except.ok.inj h, h2]; rfl
  rw [if_neg h2] at h
  by_cases h3 : t.text = c% ">="
  · rw [if_pos h3] at h; rw [← Except.ok.inj h, h3]; rfl
  rw [if_neg h3] at h
  by_cases h4 : t.text = c% "<"
  · rw [if_pos h4] at h; rw [← Except.ok.inj h, h4]; rfl
  rw [if_neg h4] at h
  by_cases h5 : t.text = c% "<="
  · rw [if_pos h5] at h; rw [← Except.ok.inj h, h5]; rfl
  rw [if_neg h5] at h
  by_cases h6 : t.text = c% "<>"
  · rw [if_pos h6] at h; rw [← Except.ok.inj h, if_pos (.inl h6)]; exact not_eq a b
  rw [if_neg h6] at h; exact nomatch h

theorem arith_mean {t : Tok} {o : BinOp} (h : arithOf t = .ok o) (a b : M.D) : Model.binary o a b = arithmetic t a b := by
  unfold arithOf at h
  unfold arithmetic
  by_cases h1 : t.text = c% "+"
  · rw [if_pos h1] at h ⊢; rw [← Except.ok.inj h]
  rw [if_neg h1] at h ⊢
  by_cases h2 : t.text = c% "-"
  · rw [if_pos h2] at h ⊢; rw [← Except.ok.inj h]
  rw [if_neg h2] at h ⊢
  by_cases h3 : t.text = c% "*"
  · rw [if_pos h3] at h ⊢; rw [← Except.ok.inj h]
  rw [if_neg h3] at h ⊢
  by_cases h4 : t.text = c% "/"
  · rw [if_pos h4] at h ⊢; rw [← Except.ok.inj h]
  rw [if_neg h4] at h ⊢
  by_cases h5 : t.text = c% "%"
  · rw [if_pos h5] at h ⊢; rw [← Except.ok.inj h]
  rw [if_neg h5] at h; exact nomatch h

theorem sign_mean {t : Tok} {o : UnOp} (h : signOf t = .ok o) (a : M.D) : signMeaning o a = signed t a := by
  unfold signOf at h
  unfold signed
  by_cases h1 : t.text = c% "+"
  · rw [if_pos h1] at h; rw [← Except.ok.inj h, h1]; rfl
  rw [if_neg h1] at h
  by_cases h2 : t.text = c% "-"
  · rw [if_pos h2] at h ⊢; rw [← Except.ok.inj h]; rfl
  rw [if_neg h2] at h; exact nomatch h

/-- A predicate with or without NOT. -/
theorem negIf_mean {neg : Bool} {x e : Expr} {d dn : M.D} (h : negIf neg x = .ok e) (hx : x.mean M = d) (hn : dn = Model.not d) :
    e.mean M = if neg then dn else d := by
  cases neg with
  | true =>
    rw [build_inv (h : Expr.build (.not x) = _), Expr_mean_not, hx, hn]; rfl
  | false => rw [build_inv (h : Expr.build x = _), hx]; rfl

theorem number_mean {m : Bool} {t : Tok} {e : Expr} (hk : keptNumber m t = true) (h : numLit m t = .ok e) :
    e.mean M = numberOf m t := by
  unfold numLit at h
  unfold numberOf
  cases hkind : t.kind with
  | int =>
    rw [hkind] at h
    rw [build_inv h]; rfl
  | dec =>
    rw [hkind] at h
    cases hd : decOfPlain t.text with
    | none => rw [hd] at h; exact nomatch h
    | some d =>
      rw [hd] at h
      obtain ⟨ty, _, h⟩ := bind_ok h
      rw [build_inv h, Expr_mean_lit]
      show Model.decimal _ = Model.decimal _
      cases m with
      | false => rfl
      | true =>
        simp only [keptNumber, hkind, hd, Bool.not_true, Bool.false_or, bne_self_eq_false, Bool.and_eq_true, bne_iff_ne,
          decide_eq_true_eq] at hk
        refine congrArg _ ?_
        simp [Dec.negate, roundCoeff, hk.2, hk.1]
  | dbl =>
    rw [hkind] at h
    rw [build_inv h]; rfl
  | _ => rw [hkind] at h; exact nomatch h

theorem interval_mean (minus : Bool) {s : Str} (hs : singleSign s = true) (f : Str) (t : Option Str) :
    (intervalMeaning false (intervalValue minus s) f t : M.D) = intervalMeaning minus s f t := by
  suffices h : signedText false (intervalValue minus s) = signedText minus s by
    unfold intervalMeaning; rw [h]
  rcases s with _ | ⟨a, _ | ⟨b, s⟩⟩
  · cases minus <;> rfl
  · by_cases h1 : a = '+'
    · subst h1; cases minus <;> rfl
    · by_cases h2 : a = '-'
      · subst h2; cases minus <;> rfl
      · cases minus <;> simp [intervalValue, stripPlus, flipText, signedText, h1, h2]
  · have hs : (isSign a && isSign b) = false := by
      have h : (!(isSign a && isSign b)) = true := hs
      rwa [Bool.not_eq_true'] at h
    by_cases h1 : a = '+'
    · subst h1
      have hb : b ≠ '+' ∧ b ≠ '-' := by simpa [isSign] using hs
      have e1 : (b == '+') = false := by simp [hb.1]
      have e2 : (b == '-') = false := by simp [hb.2]
      cases minus <;> simp [intervalValue, stripPlus, flipText, signedText, hb.1, hb.2, e1, e2, List.dropWhile]
    · by_cases h2 : a = '-'
      · subst h2
        have hb : b ≠ '+' ∧ b ≠ '-' := by simpa [isSign] using hs
        have e1 : (b == '+') = false := by simp [hb.1]
        have e2 : (b == '-') = false := by simp [hb.2]
        cases minus <;> simp [intervalValue, stripPlus, flipText, signedText, hb.1, hb.2, e1, e2, List.dropWhile]
      · cases minus <;> simp [intervalValue, stripPlus, flipText, signedText, h1, h2]

theorem datetime_mean {t : Tok} {p : Option Tok} {e : Expr} (h : dateTimeOf t p = .ok e) : e.mean M = currentMeaning t p := by
  unfold dateTimeOf at h
  unfold currentMeaning
  by_cases h1 : upper t.text = c% "CURRENT_DATE"
  · simp only [h1, if_true] at h ⊢
    rw [build_inv h]; rfl
  rw [if_neg h1] at h ⊢
  by_cases h2 : upper t.text = c% "CURRENT_TIME"
  · rw [if_pos h2] at h; rw [build_inv h, h2]; cases p <;> rfl
  rw [if_neg h2] at h
  by_cases h3 : upper t.text = c% "CURRENT_TIMESTAMP"
  · rw [if_pos h3] at h; rw [build_inv h, h3]; cases p <;> rfl
  rw [if_neg h3] at h
  by_cases h4 : upper t.text = c% "LOCALTIME"
  · rw [if_pos h4] at h; rw [build_inv h, h4]; cases p <;> rfl
  rw [if_neg h4] at h
  by_cases h5 : upper t.text = c% "LOCALTIMESTAMP"
  · rw [if_pos h5] at h; rw [build_inv h, h5]; cases p <;> rfl
  rw [if_neg h5] at h; exact nomatch h

theorem session_kept {t : Tok} {e : Expr} (h : sessionOf t = .ok e) : e.mean M = Model.const (.session (upper t.text)) := by
  unfold sessionOf at h
  by_cases h1 : upper t.text = c% "CURRENT_USER"
  · rw [if_pos h1] at h; rw [build_inv h, h1]; rfl
  rw [if_neg h1] at h
  by_cases h2 : upper t.text = c% "CURRENT_CATALOG"
  · rw [if_pos h2] at h; rw [build_inv h, h2]; rfl
  rw [if_neg h2] at h
  by_cases h3 : upper t.text = c% "CURRENT_SCHEMA"
  · rw [if_pos h3] at h; rw [build_inv h, h3]; rfl
  rw [if_neg h3] at h
  by_cases h4 : upper t.text = c% "CURRENT_PATH"
  · rw [if_pos h4] at h; rw [build_inv h, h4]; rfl
  rw [if_neg h4] at h; exact nomatch h

theorem form_mean {t : Option Tok} {f : Option NormalForm} (h : formOf t = .ok f) : f.map formName = t.map Tok.text := by
  cases t with
  | none => rw [← Except.ok.inj h]; rfl
  | some t =>
    unfold formOf at h
    by_cases h1 : t.text = c% "NFD"
    · simp only [h1, if_true] at h; rw [← Except.ok.inj h]; show _ = some t.text; rw [h1]; rfl
    simp only [h1, if_false] at h
    by_cases h2 : t.text = c% "NFC"
    · simp only [h2, if_true] at h; rw [← Except.ok.inj h]; show _ = some t.text; rw [h2]; rfl
    simp only [h2, if_false] at h
    by_cases h3 : t.text = c% "NFKD"
    · simp only [h3, if_true] at h; rw [← Except.ok.inj h]; show _ = some t.text; rw [h3]; rfl
    simp only [h3, if_false] at h
    by_cases h4 : t.text = c% "NFKC"
    · simp only [h4, if_true] at h; rw [← Except.ok.inj h]; show _ = some t.text; rw [h4]; rfl
    simp only [h4, if_false] at h
    exact nomatch h

theorem fn_name_of {s : Str} {f : Fn} (h : Fn.ofName? s = some f) : f.name = s := by
  have := List.find?_some h; simpa using this
theorem agg_name_of {s : Str} {f : Agg} (h : Agg.ofName? s = some f) : f.name = s := by
  have := List.find?_some h; simpa using this

/-- Calls. -/
theorem call_mean {name : List Tok} {ns : List Str} {q : Option Tok} {args : List Expr} {ob : List Ord} {fl : Option Expr}
    {ign : Option Bool} {w : Option Win} {e : Expr} (hk : keptCall name q args.length = true) (hn : identTexts name = .ok ns)
    (h : callOf ns args ob fl ign w = .ok e) :
    e.mean M = M.op (.call (calledName name) (ign == some true)) [Model.list (Expr.means M args), Model.list (Ord.means M ob),
      Model.opt (Expr.meanOpt M fl), Model.opt (Win.meanOpt M w)] := by
  unfold keptCall at hk
  simp only [Bool.and_eq_true] at hk
  have hns := names_mean hk.1.1 hn
  subst hns
  rcases name with _ | ⟨t, _ | ⟨t', ts⟩⟩
  · exact nomatch h
  · have hc : calledName [t] = upper (nameOf t) := rfl
    rw [hc]
    replace h : (match Fn.ofName? (upper (nameOf t)) with
      | some f =>
        if w.isSome || !ob.isEmpty || fl.isSome || ign.isSome then .error .assertion
        else if fnArgsOk f args.length then Expr.build (.func f args)
        else .error .valueError
      | none =>
        match Agg.ofName? (upper (nameOf t)) with
        | some f => Expr.build (.agg f (aggArgOrder f args) ob fl w (ign == some true))
        | none => specialOf (upper (nameOf t)) args ob fl ign w) = Except.ok e := h
    cases hf : Fn.ofName? (upper (nameOf t)) with
    | some f =>
      rw [hf] at h
      replace h : (if w.isSome || !ob.isEmpty || fl.isSome || ign.isSome then .error .assertion
        else if fnArgsOk f args.length then Expr.build (.func f args)
        else .error .valueError) = Except.ok e := h
      cases hb : (w.isSome || !ob.isEmpty || fl.isSome || ign.isSome) with
      | true => rw [hb] at h; exact nomatch h
      | false =>
        rw [hb, if_neg nofun] at h
        simp only [Bool.or_eq_false_iff, Bool.not_eq_false', Option.isSome_eq_false_iff, Option.isNone_iff_eq_none,
          List.isEmpty_iff] at hb
        obtain ⟨⟨⟨rfl, rfl⟩, rfl⟩, rfl⟩ := hb
        cases ha : fnArgsOk f args.length with
        | false => rw [ha] at h; exact nomatch h
        | true =>
          rw [ha, if_pos rfl] at h
          rw [build_inv h, Expr_mean_func, fn_name_of hf]; rfl
    | none =>
      rw [hf] at h
      cases hg : Agg.ofName? (upper (nameOf t)) with
      | none =>
        rw [hg] at h
        have := hk.2.2
        rw [hc, (special_of (h : specialOf (upper (nameOf t)) args ob fl ign w = Except.ok e)).own] at this
        exact nomatch this
      | some f =>
        rw [hg] at h
        replace h : Expr.build (.agg f (aggArgOrder f args) ob fl w (ign == some true)) = Except.ok e := h
        have ho : aggArgOrder f args = args := by
          unfold aggArgOrder
          split
          · next v a b =>
            have hnm := agg_name_of hg
            have := hk.2.1
            rw [hc, ← hnm] at this
            exact nomatch (this : false = true)
          · rfl
        rw [build_inv h, ho, Expr_mean_agg, agg_name_of hg]
  · exact nomatch h

theorem table_kept {name : List Tok} {ns : List Str} {t : TableRef} (hk : keptTable name = true) (hn : identTexts name = .ok ns)
    (h : tableFromQualifiers ns = .ok t) : (tableMeaning t : M.D) = tableName name := by
  unfold keptTable at hk
  rw [Bool.and_eq_true, decide_eq_true_eq] at hk
  have hns := names_mean hk.1 hn
  subst hns
  rcases name with _ | ⟨a, _ | ⟨b, _ | ⟨c, _ | ⟨d, r⟩⟩⟩⟩
  · exact nomatch h
  · obtain ⟨_, _, h⟩ := bind_ok (h : (TableRef.check _ >>= _) = _)
    rw [← Except.ok.inj h]; rfl
  · obtain ⟨_, _, h⟩ := bind_ok (h : (TableRef.check _ >>= _) = _)
    rw [← Except.ok.inj h]; rfl
  · obtain ⟨_, _, h⟩ := bind_ok (h : (TableRef.check _ >>= _) = _)
    rw [← Except.ok.inj h]; rfl
  · have := hk.2
    simp at this

theorem kind_mean {t : Tok} {k : SetKind} (h : setKindOf t = .ok k) : k = kindMeaning t := by
  unfold setKindOf at h
  unfold kindMeaning
  by_cases h1 : upper t.text = c% "INTERSECT"
  · rw [if_pos h1] at h ⊢; exact (Except.ok.inj h).symm
  rw [if_neg h1] at h ⊢
  by_cases h2 : upper t.text = c% "UNION"
  · rw [if_pos h2] at h; rw [h2, ← Except.ok.inj h]; rfl
  rw [if_neg h2] at h
  by_cases h3 : upper t.text = c% "EXCEPT"
  · rw [if_pos h3] at h ⊢; exact (Except.ok.inj h).symm
  rw [if_neg h3] at h; exact nomatch h

theorem sample_kept {t : Tok} {k : SampleType} (h : sampleOf t = .ok k) : k = sampleMeaning t := by
  unfold sampleOf at h
  unfold sampleMeaning
  by_cases h1 : t.text = c% "BERNOULLI"
  · rw [if_pos h1] at h; rw [h1, ← Except.ok.inj h]; decide +kernel
  rw [if_neg h1] at h
  by_cases h2 : t.text = c% "SYSTEM"
  · rw [if_pos h2] at h; rw [h2, ← Except.ok.inj h]; decide +kernel
  rw [if_neg h2] at h; exact nomatch h

theorem frame_kept {t : Tok} {k : FrameType} (h : frameOf t = .ok k) : k = frameMeaning t := by
  unfold frameOf at h
  unfold frameMeaning
  by_cases h1 : upper t.text = c% "RANGE"
  · rw [if_pos h1] at h; rw [h1, ← Except.ok.inj h]; rfl
  rw [if_neg h1] at h
  by_cases h2 : upper t.text = c% "ROWS"
  · rw [if_pos h2] at h ⊢; exact (Except.ok.inj h).symm
  rw [if_neg h2] at h ⊢
  by_cases h3 : upper t.text = c% "GROUPS"
  · rw [if_pos h3] at h ⊢; exact (Except.ok.inj h).symm
  rw [if_neg h3] at h; exact nomatch h

theorem bound_kept {t : Tok} {k : BoundType} (h : boundOf t = .ok k) : k = sideMeaning t := by
  unfold boundOf at h
  unfold sideMeaning
  by_cases h1 : upper t.text = c% "PRECEDING"
  · rw [if_pos h1] at h ⊢; exact (Except.ok.inj h).symm
  rw [if_neg h1] at h ⊢
  by_cases h2 : upper t.text = c% "FOLLOWING"
  · rw [if_pos h2] at h; exact (Except.ok.inj h).symm
  rw [if_neg h2] at h; exact nomatch h

theorem desc_mean (t : Option Tok) : isDesc t = descMeaning t := by
  cases t with
  | none => rfl
  | some t =>
    show (upper t.text != c% "ASC") = decide (upper t.text ≠ c% "ASC")
    by_cases h : upper t.text = c% "ASC" <;> simp [h]
theorem first_mean (t : Option Tok) : isNullsFirst t = firstMeaning t := by
  cases t with
  | none => rfl
  | some t =>
    show (upper t.text != c% "LAST") = decide (upper t.text ≠ c% "LAST")
    by_cases h : upper t.text = c% "LAST" <;> simp [h]

theorem join_kept (t : CJoin) : t.conv = joinMeaning t := by cases t <;> rfl

theorem alias_mean {e v : Expr} {t : Option Tok} {n : Option Str} (hk : keptOptName t = true) (hn : identOpt t = .ok n)
    (h : aliasOf v n = .ok e) : e.mean M = aliasMeaning t (v.mean M) := by
  rw [optname_mean hk hn] at h
  cases t with
  | none => rw [← Except.ok.inj (h : Except.ok v = _)]; rfl
  | some t => rw [build_inv (h : Expr.build _ = _)]; rfl

theorem call_not_column {ns : List Str} {args : List Expr} {ob : List Ord} {fl : Option Expr}
    {ign : Option Bool} {w : Option Win} {e : Expr} (h : callOf ns args ob fl ign w = .ok e) :
    (∀ n t ty, e ≠ .field n t ty) ∧ ∀ n b ty, e ≠ .fieldOf n b ty := by
  unfold callOf at h
  split at h
  · split at h
    · split at h
      · exact nomatch h
      · split at h
        · rw [build_inv h]; exact ⟨nofun, nofun⟩
        · exact nomatch h
    · split at h
      · rw [build_inv h]; exact ⟨nofun, nofun⟩
      · exact (special_of h).no_column
  · exact nomatch h

/-- What converts to a column was a column. -/
theorem column_like : ∀ (c : CE) (e : Expr), c.conv = .ok e → columnLike c = false → (∀ n t ty, e ≠ .field n t ty) ∧ ∀ n b ty, e ≠ .fieldOf n b ty
  | .or_ l r, e, h, _ => by
    rw [CE_conv_or_] at h
    obtain ⟨a, ha, h⟩ := bind_ok h
    obtain ⟨b, hb, h⟩ := bind_ok h
    rw [build_inv h]; exact ⟨nofun, nofun⟩
  | .and_ l r, e, h, _ => by
    rw [CE_conv_and_] at h
    obtain ⟨a, ha, h⟩ := bind_ok h
    obtain ⟨b, hb, h⟩ := bind_ok h
    rw [build_inv h]; exact ⟨nofun, nofun⟩
  | .not_ v, e, h, _ => by
    rw [CE_conv_not_] at h
    obtain ⟨a, ha, h⟩ := bind_ok h
    rw [build_inv h]; exact ⟨nofun, nofun⟩
  | .cmp op l r, e, h, _ => by
    rw [CE_conv_cmp] at h
    obtain ⟨a, ha, h⟩ := bind_ok h
    obtain ⟨b, hb, h⟩ := bind_ok h
    obtain ⟨o, ho, h⟩ := bind_ok h
    rw [build_inv h]; exact ⟨nofun, nofun⟩
  | .between neg v l u, e, h, _ => by
    rw [CE_conv_between] at h
    obtain ⟨a, ha, h⟩ := bind_ok h
    obtain ⟨b, hb, h⟩ := bind_ok h
    obtain ⟨c, hc, h⟩ := bind_ok h
    cases neg <;> (rw [build_inv (h : Expr.build _ = _)]; exact ⟨nofun, nofun⟩)
  | .inList neg v es, e, h, _ => by
    rw [CE_conv_inList] at h
    obtain ⟨a, ha, h⟩ := bind_ok h
    obtain ⟨b, hb, h⟩ := bind_ok h
    cases neg <;> (rw [build_inv (h : Expr.build _ = _)]; exact ⟨nofun, nofun⟩)
  | .inSub neg v q, e, h, _ => by
    rw [CE_conv_inSub] at h
    obtain ⟨a, ha, h⟩ := bind_ok h
    obtain ⟨b, hb, h⟩ := bind_ok h
    obtain ⟨b', hb', h⟩ := bind_ok h
    cases neg <;> (rw [build_inv (h : Expr.build _ = _)]; exact ⟨nofun, nofun⟩)
  | .like neg v p esc, e, h, _ => by
    rw [CE_conv_like] at h
    obtain ⟨a, ha, h⟩ := bind_ok h
    obtain ⟨b, hb, h⟩ := bind_ok h
    obtain ⟨c, hc, h⟩ := bind_ok h
    cases neg <;> (rw [build_inv (h : Expr.build _ = _)]; exact ⟨nofun, nofun⟩)
  | .isNull neg v, e, h, _ => by
    rw [CE_conv_isNull] at h
    obtain ⟨a, ha, h⟩ := bind_ok h
    cases neg <;> (rw [build_inv (h : Expr.build _ = _)]; exact ⟨nofun, nofun⟩)
  | .distinct neg l r, e, h, _ => by
    rw [CE_conv_distinct] at h
    obtain ⟨a, ha, h⟩ := bind_ok h
    obtain ⟨b, hb, h⟩ := bind_ok h
    cases neg <;> (rw [build_inv (h : Expr.build _ = _)]; exact ⟨nofun, nofun⟩)
  | .concat l r, e, h, _ => by
    rw [CE_conv_concat] at h
    obtain ⟨a, ha, h⟩ := bind_ok h
    obtain ⟨b, hb, h⟩ := bind_ok h
    rw [build_inv h]; exact ⟨nofun, nofun⟩
  | .arith op l r, e, h, _ => by
    rw [CE_conv_arith] at h
    obtain ⟨a, ha, h⟩ := bind_ok h
    obtain ⟨b, hb, h⟩ := bind_ok h
    obtain ⟨o, ho, h⟩ := bind_ok h
    rw [build_inv h]; exact ⟨nofun, nofun⟩
  | .sign op v, e, h, _ => by
    rw [CE_conv_sign] at h
    obtain ⟨a, ha, h⟩ := bind_ok h
    obtain ⟨o, ho, h⟩ := bind_ok h
    rw [build_inv h]; exact ⟨nofun, nofun⟩
  | .atZone v z, e, h, _ => by
    rw [CE_conv_atZone] at h
    obtain ⟨_, _, h⟩ := bind_ok h
    obtain ⟨x, y, w, rfl⟩ := zone_inv h
    exact ⟨nofun, nofun⟩
  | .quantified .., e, h, _ => by
    rw [CE_conv_quantified] at h
    obtain ⟨_, _, h⟩ := bind_ok h
    exact nomatch h
  | .null, e, h, _ => by
    rw [CE_conv_null] at h
    rw [build_inv h]; exact ⟨nofun, nofun⟩
  | .interval sg s f t, e, h, _ => by
    rw [CE_conv_interval] at h
    obtain ⟨a, ha, h⟩ := bind_ok h
    rw [build_inv h]; exact ⟨nofun, nofun⟩
  | .typeCtor n s, e, h, _ => by
    rw [CE_conv_typeCtor] at h
    obtain ⟨a, ha, h⟩ := bind_ok h
    obtain ⟨b, hb, h⟩ := bind_ok h
    rw [build_inv h]; exact ⟨nofun, nofun⟩
  | .doublePrecision s, e, h, _ => by
    rw [CE_conv_doublePrecision] at h
    obtain ⟨a, ha, h⟩ := bind_ok h
    exact nomatch h
  | .num m t, e, h, _ => by
    rw [CE_conv_num] at h
    unfold numLit at h
    split at h
    · rw [build_inv h]; exact ⟨nofun, nofun⟩
    · split at h
      · obtain ⟨a, ha, h⟩ := bind_ok h
        rw [build_inv h]; exact ⟨nofun, nofun⟩
      · exact nomatch h
    · rw [build_inv h]; exact ⟨nofun, nofun⟩
    · exact nomatch h
  | .bool t, e, h, _ => by
    rw [CE_conv_bool] at h
    rw [build_inv h]; exact ⟨nofun, nofun⟩
  | .str s, e, h, _ => by
    rw [CE_conv_str] at h
    obtain ⟨a, ha, h⟩ := bind_ok h
    obtain ⟨b, hb, h⟩ := bind_ok h
    rw [build_inv h]; exact ⟨nofun, nofun⟩
  | .binary t, e, h, _ => by
    rw [CE_conv_binary] at h; exact nomatch h
  | .param, e, h, _ => by
    rw [CE_conv_param] at h; exact nomatch h
  | .row es, e, h, _ => by
    rw [CE_conv_row] at h
    obtain ⟨a, ha, h⟩ := bind_ok h
    rw [build_inv h]; exact ⟨nofun, nofun⟩
  | .rowKw es, e, h, _ => by
    rw [CE_conv_rowKw] at h
    obtain ⟨a, ha, h⟩ := bind_ok h
    rw [build_inv h]; exact ⟨nofun, nofun⟩
  | .listagg q v sep ov ob, e, h, _ => by
    rw [CE_conv_listagg] at h
    obtain ⟨a, ha, h⟩ := bind_ok h
    obtain ⟨b, hb, h⟩ := bind_ok h
    obtain ⟨c, hc, h⟩ := bind_ok h
    obtain ⟨d, hd, h⟩ := bind_ok h
    rw [build_inv h]; exact ⟨nofun, nofun⟩
  | .callStar name label fl w, e, h, _ => by
    rw [CE_conv_callStar] at h
    obtain ⟨a, ha, h⟩ := bind_ok h
    obtain ⟨b, hb, h⟩ := bind_ok h
    obtain ⟨c, hc, h⟩ := bind_ok h
    obtain ⟨d, hd, h⟩ := bind_ok h
    exact call_not_column h
  | .call name q args ob fl ign w, e, h, _ => by
    rw [CE_conv_call] at h
    obtain ⟨a, ha, h⟩ := bind_ok h
    obtain ⟨b, hb, h⟩ := bind_ok h
    obtain ⟨c, hc, h⟩ := bind_ok h
    obtain ⟨d, hd, h⟩ := bind_ok h
    obtain ⟨d', hd', h⟩ := bind_ok h
    exact call_not_column h
  | .lam p ids b, e, h, _ => by
    rw [CE_conv_lam] at h
    obtain ⟨a, ha, h⟩ := bind_ok h
    obtain ⟨b, hb, h⟩ := bind_ok h
    rw [(Props.C40_binds_partial _ _ _ h).1]; exact ⟨nofun, nofun⟩
  | .sub q, e, h, _ => by
    rw [CE_conv_sub] at h
    obtain ⟨a, ha, h⟩ := bind_ok h
    obtain ⟨b, hb, h⟩ := bind_ok h
    rw [← Except.ok.inj h]; exact ⟨nofun, nofun⟩
  | .case v ws el, e, h, _ => by
    rw [CE_conv_case] at h
    obtain ⟨a, ha, h⟩ := bind_ok h
    obtain ⟨b, hb, h⟩ := bind_ok h
    obtain ⟨c, hc, h⟩ := bind_ok h
    rw [build_inv h]; exact ⟨nofun, nofun⟩
  | .cast tr v ty ts, e, h, _ => by
    rw [CE_conv_cast] at h
    obtain ⟨a, ha, h⟩ := bind_ok h
    obtain ⟨b, hb, h⟩ := bind_ok h
    rw [build_inv h]; exact ⟨nofun, nofun⟩
  | .array es, e, h, _ => by
    rw [CE_conv_array] at h
    obtain ⟨a, ha, h⟩ := bind_ok h
    rw [build_inv h]; exact ⟨nofun, nofun⟩
  | .subscript v i, e, h, _ => by
    rw [CE_conv_subscript] at h
    obtain ⟨a, ha, h⟩ := bind_ok h
    obtain ⟨b, hb, h⟩ := bind_ok h
    rw [build_inv h]; exact ⟨nofun, nofun⟩
  | .col t, e, h, hc => nomatch hc
  | .deref v n, e, h, hc => nomatch hc
  | .dateTime t p, e, h, _ => by
    rw [CE_conv_dateTime] at h
    unfold dateTimeOf at h
    by_cases h1 : upper t.text = c% "CURRENT_DATE"
    · simp only [h1, if_true] at h; rw [build_inv h]; exact ⟨nofun, nofun⟩
    rw [if_neg h1] at h
    by_cases h2 : upper t.text = c% "CURRENT_TIME"
    · rw [if_pos h2] at h; rw [build_inv h]; exact ⟨nofun, nofun⟩
    rw [if_neg h2] at h
    by_cases h3 : upper t.text = c% "CURRENT_TIMESTAMP"
    · rw [if_pos h3] at h; rw [build_inv h]; exact ⟨nofun, nofun⟩
    rw [if_neg h3] at h
    by_cases h4 : upper t.text = c% "LOCALTIME"
    · rw [if_pos h4] at h; rw [build_inv h]; exact ⟨nofun, nofun⟩
    rw [if_neg h4] at h
    by_cases h5 : upper t.text = c% "LOCALTIMESTAMP"
    · rw [if_pos h5] at h; rw [build_inv h]; exact ⟨nofun, nofun⟩
    rw [if_neg h5] at h; exact nomatch h
  | .session t, e, h, _ => by
    rw [CE_conv_session] at h
    unfold sessionOf at h
    by_cases h1 : upper t.text = c% "CURRENT_USER"
    · rw [if_pos h1] at h; rw [build_inv h]; exact ⟨nofun, nofun⟩
    rw [if_neg h1] at h
    by_cases h2 : upper t.text = c% "CURRENT_CATALOG"
    · rw [if_pos h2] at h; rw [build_inv h]; exact ⟨nofun, nofun⟩
    rw [if_neg h2] at h
    by_cases h3 : upper t.text = c% "CURRENT_SCHEMA"
    · rw [if_pos h3] at h; rw [build_inv h]; exact ⟨nofun, nofun⟩
    rw [if_neg h3] at h
    by_cases h4 : upper t.text = c% "CURRENT_PATH"
    · rw [if_pos h4] at h; rw [build_inv h]; exact ⟨nofun, nofun⟩
    rw [if_neg h4] at h; exact nomatch h
  | .normalize v f, e, h, _ => by
    rw [CE_conv_normalize] at h
    obtain ⟨a, ha, h⟩ := bind_ok h
    obtain ⟨b, hb, h⟩ := bind_ok h
    rw [build_inv h]; exact ⟨nofun, nofun⟩
  | .paren v, e, h, hc => by
    rw [CE_conv_paren] at h
    exact column_like v e h hc
  | .exists_ _, e, h, _ => (isNone_conv _ rfl e h).elim
  | .position _ _, e, h, _ => (isNone_conv _ rfl e h).elim
  | .substring _ _ _, e, h, _ => (isNone_conv _ rfl e h).elim
  | .extract _ _, e, h, _ => (isNone_conv _ rfl e h).elim
  | .trimFrom _ _ _, e, h, _ => (isNone_conv _ rfl e h).elim
  | .trim _ _, e, h, _ => (isNone_conv _ rfl e h).elim
  | .grouping _, e, h, _ => (isNone_conv _ rfl e h).elim

/-- A value before a dot. -/
theorem deref_mean {c : CE} {v e : Expr} {n : Tok} {s : Str} (hb : keptBase c = true) (hn : keptName n = true) (hv : c.conv = .ok v)
    (hc : c.kept = true) (hs : identText n = .ok s) (h : derefOf v s = .ok e) (ih : v.mean M = c.mean M) :
    e.mean M = derefMeaning c (c.mean M) n := by
  have hname := name_mean hn hs
  by_cases hcol : columnLike c = true
  · cases c
    case col t =>
      rw [CE_conv_col] at hv
      obtain ⟨x, hx, hv⟩ := bind_ok hv
      rw [build_inv hv] at h
      rw [build_inv (h : Expr.build (.field s (some x) .unknown) = _), Expr_mean_field, hname]
      rw [CE_kept_col] at hc
      have hx := name_mean hc hx
      subst hx
      rw [truthy_self (by simpa [keptBase] using hb)]
      rfl
    case deref a b => exact nomatch hb
    case paren a =>
      have : (!columnLike (.paren a)) = true := hb
      rw [hcol] at this; exact nomatch this
    all_goals exact nomatch hcol
  · have hcol : columnLike c = false := by simpa using hcol
    have hne := column_like c v hv hcol
    have h1 : derefOf v s = Expr.build (.fieldOf s v .unknown) := by
      cases v
      case field a b c => exact absurd rfl (hne.1 a b c)
      case fieldOf a b c => exact absurd rfl (hne.2 a b c)
      all_goals rfl
    have h2 : derefMeaning c (c.mean M) n = M.op (.part (nameOf n)) [c.mean M] := by
      cases c
      case col t => exact nomatch hcol
      all_goals rfl
    rw [h1] at h
    rw [build_inv h, h2, Expr_mean_fieldOf, ih, hname]

theorem allOf_mean {c : CE} {v x e : Expr} {cols : List Tok} {cs : List Str} (hb : keptBase c = true) (hn : cols.all keptName = true)
    (hv : c.conv = .ok v) (hc : c.kept = true) (hx : starOfBase v = .ok x) (hs : identTexts cols = .ok cs) (h : starAliases x cs = .ok e)
    (ih : v.mean M = c.mean M) : e.mean M = allOfMeaning c (c.mean M) cols := by
  have hname := names_mean hn hs
  subst hname
  have key : x.mean M = allOfMeaning c (c.mean M) [] := by
    by_cases hcol : columnLike c = true
    · cases c
      case col t =>
        rw [CE_conv_col] at hv
        obtain ⟨y, hy, hv⟩ := bind_ok hv
        rw [build_inv hv] at hx
        rw [build_inv (hx : Expr.build (.star (some y) .unknown) = _), Expr_mean_star]
        rw [CE_kept_col] at hc
        have hy := name_mean hc hy
        subst hy
        rw [truthy_self (by simpa [keptBase] using hb)]
        rfl
      case deref a b => exact nomatch hb
      case paren a =>
        have : (!columnLike (.paren a)) = true := hb
        rw [hcol] at this; exact nomatch this
      all_goals exact nomatch hcol
    · have hcol : columnLike c = false := by simpa using hcol
      have hne := column_like c v hv hcol
      have h1 : starOfBase v = Expr.build (.starOf v .unknown) := by
        cases v
        case field a b c => exact absurd rfl (hne.1 a b c)
        case fieldOf a b c => exact absurd rfl (hne.2 a b c)
        all_goals rfl
      rw [h1] at hx
      rw [build_inv hx, Expr_mean_starOf, ih]
      cases c
      case col t => exact nomatch hcol
      all_goals rfl
  unfold starAliases at h
  cases cols with
  | nil => rw [← Except.ok.inj (h : Except.ok x = _)]; exact key
  | cons c' cs =>
    rw [build_inv (h : Expr.build (.aliasedStar x _) = _), Expr_mean_aliasedStar, key]; rfl

theorem window_kept {p : Option Tok} {fr : CFrame} {ob ps : List M.D} {f : FrameType} {st en : M.D} (hp : (p.isNone || !noFrame fr) = true)
    (h1 : [st, en] = (match fr.mean M with | some x => x.2 | none => defaultFrame))
    (h2 : f = (match fr.mean M with | some x => x.1 | none => .range)) :
    M.op (.window (p.map nameOf) f) [Model.list ob, Model.list ps, st, en] = windowMeaning p ps ob (fr.mean M) := by
  subst h2
  cases fr with
  | none =>
    cases p with
    | some t => exact nomatch hp
    | none =>
      have h1 : [st, en] = [Model.const (.unbounded .preceding), Model.const .currentRow] := h1
      injection h1 with e1 e2
      injection e2 with e2 _
      subst e1; subst e2; rfl
  | from_ t b =>
    rw [CFrame_mean_from_] at h1 ⊢
    show M.op _ ([Model.list ob, Model.list ps] ++ [st, en]) = _
    rw [h1]; rfl
  | between t a b =>
    rw [CFrame_mean_between] at h1 ⊢
    show M.op _ ([Model.list ob, Model.list ps] ++ [st, en]) = _
    rw [h1]; rfl

theorem dictOf_kept {wins : List CWinDef} {ws : List (Str × Win)} (h : (windowNames wins).Nodup) (hn : ws.map Prod.fst = windowNames wins) :
    dictOf ws = ws := dictOf_nodup (hn ▸ h)

theorem from_mean {rs : List Rel} {f : Option Rel} (h : fromOf (rs.map some) = .ok f) :
    Model.opt (Rel.meanOpt M f) = fromMeaning (rs.map (Rel.mean M)) := by
  rcases rs with _ | ⟨r, _ | ⟨r', rs⟩⟩
  · rw [← Except.ok.inj (h : Except.ok none = _)]; rfl
  · rw [← Except.ok.inj (h : Except.ok (some r) = _)]; rfl
  · exact nomatch h

theorem groupBy_mean (gq : Option Tok) (gs : List Grp) :
    Model.opt (GroupBy.meanOpt M (groupByOf (quantMeaning false gq) gs)) = groupByMeaning gq (Grp.means M gs) := by
  cases gs <;> rfl

theorem query_plain (b : QBody) : (Query.mk b none none [] []).mean M = b.mean M := rfl

theorem order_kept {b : QBody} {ob : List Ord} {x : Option Query} (h : orderQuery ob (some (.mk b none none [] [])) = .ok x) :
    x = some (.mk b none none ob []) := by
  unfold orderQuery at h
  cases ob with
  | nil => exact (Except.ok.inj h).symm
  | cons o os => exact (Except.ok.inj (h : Except.ok (some (Query.mk b none none (o :: os) [])) = _)).symm

theorem offset_kept {b : QBody} {ob : List Ord} {off : Option (Tok × Option Tok)} {x : Option Query}
    (h : offsetQuery off (some (.mk b none none ob [])) = .ok x) :
    x = some (.mk b (off.map fun p => (digitsVal p.1.text : Int)) none ob []) := by
  unfold offsetQuery at h
  rcases off with _ | ⟨t, w⟩
  · exact (Except.ok.inj h).symm
  · obtain ⟨n, hn, h⟩ := bind_ok (h : (rowCountOf t >>= _) = _)
    unfold rowCountOf at hn
    by_cases hk : t.kind = .int
    · rw [if_pos hk] at hn
      rw [← Except.ok.inj hn] at h
      exact (Except.ok.inj h).symm
    · rw [if_neg hk] at hn; exact nomatch hn

theorem limit_kept {b : QBody} {ob : List Ord} {off : Option Int} {lim : CLimit} {x : Option Query} (hk : keptLimit lim = true)
    (h : limitQuery lim (some (.mk b off none ob [])) = .ok x) :
    ∃ n, x = some (.mk b off n ob []) ∧ ∀ d : M.D, Model.limited n d = limitMeaning lim d := by
  cases lim with
  | none => exact ⟨none, (Except.ok.inj h).symm, fun _ => rfl⟩
  | fetch a b c d => exact nomatch hk
  | limit t =>
    obtain ⟨n, hn, h⟩ := bind_ok (h : (limitOf t >>= _) = _)
    unfold limitOf at hn
    unfold limitMeaning
    by_cases hk : t.kind = .int
    · rw [if_pos hk] at hn
      rw [← Except.ok.inj hn] at h
      exact ⟨some (digitsVal t.text), (Except.ok.inj h).symm, fun d => by simp only [hk, if_true]⟩
    · rw [if_neg hk] at hn
      by_cases ha : t.text = c% "ALL"
      · rw [if_pos ha] at hn
        rw [← Except.ok.inj hn] at h
        exact ⟨none, (Except.ok.inj h).symm, fun d => by simp only [hk, if_false]; rfl⟩
      · rw [if_neg ha] at hn; exact nomatch hn

theorem with_kept {q : Query} {b : QBody} {off lim : Option Int} {ob : List Ord} {ns : List Named} {x : Option Query}
    (hq : q = .mk b off lim ob []) (h : withQuery ns (some q) = .ok x) :
    ∃ q', x = some q' ∧ q'.mean M = Model.withs false (Named.meanWiths M ns) (q.mean M) := by
  subst hq
  unfold withQuery at h
  cases ns with
  | nil => exact ⟨_, (Except.ok.inj h).symm, rfl⟩
  | cons n ns =>
    refine ⟨.mk b off lim ob (n :: ns), (Except.ok.inj (h : Except.ok (some (Query.mk b off lim ob (n :: ns))) = _)).symm, ?_⟩
    rw [Query_mean_mk, Query_mean_mk]; rfl

set_option maxHeartbeats 1600000 in
mutual
theorem cm_expr : ∀ (c : CE), c.kept = true → ∀ e, c.conv = .ok e → e.mean M = c.mean M
  | .or_ l r, hk, e, h => by
    rw [CE_kept_or_, Bool.and_eq_true] at hk
    rw [CE_conv_or_] at h
    obtain ⟨a, ha, k1⟩ := bind_ok h
    obtain ⟨b, hb, k2⟩ := bind_ok k1
    rw [build_inv k2, Expr_mean_bin, cm_expr l hk.1 a ha, cm_expr r hk.2 b hb]; rfl
  | .and_ l r, hk, e, h => by
    rw [CE_kept_and_, Bool.and_eq_true] at hk
    rw [CE_conv_and_] at h
    obtain ⟨a, ha, k1⟩ := bind_ok h
    obtain ⟨b, hb, k2⟩ := bind_ok k1
    rw [build_inv k2, Expr_mean_bin, cm_expr l hk.1 a ha, cm_expr r hk.2 b hb]; rfl
  | .not_ v, hk, e, h => by
    rw [CE_kept_not_] at hk
    rw [CE_conv_not_] at h
    obtain ⟨a, ha, k1⟩ := bind_ok h
    rw [build_inv k1, Expr_mean_not, cm_expr v hk a ha]; rfl
  | .cmp op l r, hk, e, h => by
    rw [CE_kept_cmp, Bool.and_eq_true] at hk
    rw [CE_conv_cmp] at h
    obtain ⟨a, ha, k1⟩ := bind_ok h
    obtain ⟨b, hb, k2⟩ := bind_ok k1
    obtain ⟨o, ho, k3⟩ := bind_ok k2
    rw [build_inv k3, Expr_mean_bin, cm_expr l hk.1 a ha, cm_expr r hk.2 b hb, CE_mean_cmp, cmp_mean ho]
  | .between neg v l u, hk, e, h => by
    rw [CE_kept_between, Bool.and_eq_true, Bool.and_eq_true] at hk
    rw [CE_conv_between] at h
    obtain ⟨a, ha, k1⟩ := bind_ok h
    obtain ⟨b, hb, k2⟩ := bind_ok k1
    obtain ⟨c, hc, k3⟩ := bind_ok k2
    rw [CE_mean_between]
    refine negIf_mean k3 ?_ (not_between _ _ _)
    rw [Expr_mean_between, cm_expr v hk.1 a ha, cm_expr l hk.2.1 b hb, cm_expr u hk.2.2 c hc]
  | .inList neg v es, hk, e, h => by
    rw [CE_kept_inList, Bool.and_eq_true] at hk
    rw [CE_conv_inList] at h
    obtain ⟨a, ha, k1⟩ := bind_ok h
    obtain ⟨b, hb, k2⟩ := bind_ok k1
    rw [CE_mean_inList]
    refine negIf_mean k2 ?_ (not_inList _ _)
    rw [Expr_mean_inList, cm_expr v hk.1 a ha, cm_exprs es hk.2 b hb]
  | .inSub neg v q, hk, e, h => by
    rw [CE_kept_inSub, Bool.and_eq_true] at hk
    rw [CE_conv_inSub] at h
    obtain ⟨a, ha, k1⟩ := bind_ok h
    obtain ⟨b, hb, k2⟩ := bind_ok k1
    obtain ⟨b', hb', k3⟩ := bind_ok k2
    obtain ⟨q', hq, hm⟩ := cm_query q hk.2 b hb
    have : b' = q' := Option.some.inj ((noneIs_inv hb').symm.trans hq)
    subst this
    rw [CE_mean_inSub]
    refine negIf_mean k3 ?_ (not_inRows _ _)
    rw [Expr_mean_inQuery, cm_expr v hk.1 a ha, hm]
  | .like neg v p esc, hk, e, h => by
    rw [CE_kept_like, Bool.and_eq_true, Bool.and_eq_true] at hk
    rw [CE_conv_like] at h
    obtain ⟨a, ha, k1⟩ := bind_ok h
    obtain ⟨c, hc, k2⟩ := bind_ok k1
    obtain ⟨b, hb, k3⟩ := bind_ok k2
    rw [CE_mean_like]
    refine negIf_mean k3 ?_ (not_like _ _ _)
    rw [Expr_mean_like, cm_expr v hk.1 a ha, cm_expr p hk.2.1 b hb, cm_opt esc hk.2.2 c (drop_kept hk.2.2 hc)]
  | .isNull neg v, hk, e, h => by
    rw [CE_kept_isNull] at hk
    rw [CE_conv_isNull] at h
    obtain ⟨a, ha, k1⟩ := bind_ok h
    rw [CE_mean_isNull]
    refine negIf_mean k1 ?_ (not_isNull _)
    rw [Expr_mean_isNull, cm_expr v hk a ha]
  | .distinct neg l r, hk, e, h => by
    rw [CE_kept_distinct, Bool.and_eq_true] at hk
    rw [CE_conv_distinct] at h
    obtain ⟨a, ha, k1⟩ := bind_ok h
    obtain ⟨b, hb, k2⟩ := bind_ok k1
    rw [CE_mean_distinct]
    refine negIf_mean k2 ?_ (not_distinct _ _)
    rw [Expr_mean_bin, cm_expr l hk.1 a ha, cm_expr r hk.2 b hb]
  | .concat l r, hk, e, h => by
    rw [CE_kept_concat, Bool.and_eq_true] at hk
    rw [CE_conv_concat] at h
    obtain ⟨a, ha, k1⟩ := bind_ok h
    obtain ⟨b, hb, k2⟩ := bind_ok k1
    rw [build_inv k2, Expr_mean_func, Expr_means_cons, Expr_means_cons, Expr_means_nil, cm_expr l hk.1 a ha, cm_expr r hk.2 b hb]; rfl
  | .arith op l r, hk, e, h => by
    rw [CE_kept_arith, Bool.and_eq_true] at hk
    rw [CE_conv_arith] at h
    obtain ⟨a, ha, k1⟩ := bind_ok h
    obtain ⟨b, hb, k2⟩ := bind_ok k1
    obtain ⟨o, ho, k3⟩ := bind_ok k2
    rw [build_inv k3, Expr_mean_bin, cm_expr l hk.1 a ha, cm_expr r hk.2 b hb, CE_mean_arith, arith_mean ho]
  | .sign op v, hk, e, h => by
    rw [CE_kept_sign] at hk
    rw [CE_conv_sign] at h
    obtain ⟨a, ha, k1⟩ := bind_ok h
    obtain ⟨o, ho, k2⟩ := bind_ok k1
    rw [build_inv k2, Expr_mean_un, cm_expr v hk a ha, CE_mean_sign, sign_mean ho]
  | .atZone _ _, hk, _, _ => nomatch hk
  | .quantified .., hk, e, h => by
    rw [CE_conv_quantified] at h
    obtain ⟨_, _, h⟩ := bind_ok h
    exact nomatch h
  | .null, hk, e, h => by
    rw [CE_conv_null] at h
    rw [build_inv h]; rfl
  | .interval sg s f t, hk, e, h => by
    rw [CE_kept_interval, Bool.and_eq_true] at hk
    rw [CE_conv_interval] at h
    obtain ⟨a, ha, k1⟩ := bind_ok h
    have hs := str_mean hk.1 ha
    subst hs
    rw [build_inv k1, Expr_mean_interval, CE_mean_interval, interval_mean _ hk.2]
  | .typeCtor n s, hk, e, h => by
    rw [CE_kept_typeCtor, Bool.and_eq_true] at hk
    rw [CE_conv_typeCtor] at h
    obtain ⟨a, ha, k1⟩ := bind_ok h
    obtain ⟨b, hb, k2⟩ := bind_ok k1
    rw [build_inv k2, Expr_mean_typeCtor, CE_mean_typeCtor, str_mean hk.2 ha, name_mean hk.1 hb]
  | .doublePrecision s, hk, e, h => by
    rw [CE_conv_doublePrecision] at h
    obtain ⟨a, ha, k1⟩ := bind_ok h
    exact nomatch k1
  | .num m t, hk, e, h => by
    rw [CE_conv_num] at h
    rw [CE_mean_num]
    exact number_mean hk h
  | .bool t, hk, e, h => by
    rw [CE_conv_bool] at h
    rw [build_inv h]; rfl
  | .str s, hk, e, h => by
    rw [CE_kept_str] at hk
    rw [CE_conv_str] at h
    obtain ⟨a, ha, k1⟩ := bind_ok h
    obtain ⟨b, hb, k2⟩ := bind_ok k1
    rw [build_inv k2, Expr_mean_lit, CE_mean_str, str_mean hk ha]; rfl
  | .binary t, hk, e, h => by
    rw [CE_conv_binary] at h; exact nomatch h
  | .param, hk, e, h => by
    rw [CE_conv_param] at h; exact nomatch h
  | .row es, hk, e, h => by
    rw [CE_kept_row] at hk
    rw [CE_conv_row] at h
    obtain ⟨a, ha, k1⟩ := bind_ok h
    rw [build_inv k1, Expr_mean_row, CE_mean_row, cm_exprs es hk a ha]
  | .rowKw es, hk, e, h => by
    rw [CE_kept_rowKw] at hk
    rw [CE_conv_rowKw] at h
    obtain ⟨a, ha, k1⟩ := bind_ok h
    rw [build_inv k1, Expr_mean_row, CE_mean_rowKw, cm_exprs es hk a ha]
  | .listagg q v sep ov ob, hk, e, h => by
    rw [CE_kept_listagg, Bool.and_eq_true, Bool.and_eq_true, Bool.and_eq_true, Bool.and_eq_true, Bool.not_eq_true'] at hk
    rw [CE_conv_listagg] at h
    obtain ⟨a, ha, k1⟩ := bind_ok h
    obtain ⟨b, hb, k2⟩ := bind_ok k1
    obtain ⟨c, hc, k3⟩ := bind_ok k2
    obtain ⟨d, hd, k4⟩ := bind_ok k3
    rw [build_inv k4, Expr_mean_listagg, CE_mean_listagg, if_neg (by rw [hk.1]; exact nofun), optstr_mean hk.2.2.1 ha,
      overflow_kept hk.2.2.2.1 hb, cm_sorts ob hk.2.2.2.2 c hc, cm_expr v hk.2.1 d hd]
  | .callStar name label fl w, hk, e, h => by
    rw [CE_kept_callStar, Bool.and_eq_true, Bool.and_eq_true, Bool.and_eq_true] at hk
    rw [CE_conv_callStar] at h
    obtain ⟨a, ha, k1⟩ := bind_ok h
    obtain ⟨b, hb, k2⟩ := bind_ok k1
    obtain ⟨c, hc, k3⟩ := bind_ok k2
    obtain ⟨d, hd, k4⟩ := bind_ok k3
    rw [call_mean (q := none) hk.1 ha k4, CE_mean_callStar, cm_wopt w hk.2.2.2 b hb, cm_opt fl hk.2.2.1 c hc, Expr_means_cons,
      Expr_means_nil, Expr_mean_star, (prefix_mean hk.2.1 hd).2]; rfl
  | .call name q args ob fl ign w, hk, e, h => by
    rw [CE_kept_call, Bool.and_eq_true, Bool.and_eq_true, Bool.and_eq_true, Bool.and_eq_true] at hk
    rw [CE_conv_call] at h
    obtain ⟨a, ha, k1⟩ := bind_ok h
    obtain ⟨b, hb, k2⟩ := bind_ok k1
    obtain ⟨c, hc, k3⟩ := bind_ok k2
    obtain ⟨d, hd, k4⟩ := bind_ok k3
    obtain ⟨d', hd', k5⟩ := bind_ok k4
    have hl := cm_length args d' hd'
    have hq : quantMeaning false q = false := by
      have := hk.1
      unfold keptCall at this
      simp only [Bool.and_eq_true, Bool.not_eq_true'] at this
      exact this.1.2
    rw [call_mean (q := q) (by rw [hl]; exact hk.1) ha k5, CE_mean_call, if_neg (by rw [hq]; exact nofun), cm_exprs args hk.2.1 d' hd',
      cm_sorts ob hk.2.2.1 c hc, cm_opt fl hk.2.2.2.1 d hd, cm_wopt w hk.2.2.2.2 b hb]
  | .lam p ids b, hk, e, h => by
    rw [CE_kept_lam, Bool.and_eq_true] at hk
    rw [CE_conv_lam] at h
    obtain ⟨a, ha, k1⟩ := bind_ok h
    obtain ⟨x, hx, k2⟩ := bind_ok k1
    rw [(Props.C40_binds_partial _ _ _ k2).1, Expr_mean_lam, CE_mean_lam, names_mean hk.1 ha, ← cm_expr b hk.2 x hx]
    exact congrArg (fun d => M.op _ [d]) (mm_Expr (bindNode_mean _) (fun _ => rfl) x)
  | .sub q, hk, e, h => by
    rw [CE_kept_sub] at hk
    rw [CE_conv_sub] at h
    obtain ⟨a, ha, k1⟩ := bind_ok h
    obtain ⟨b, hb, k2⟩ := bind_ok k1
    obtain ⟨q', hq, hm⟩ := cm_query q hk a ha
    have : b = q' := Option.some.inj ((noneIs_inv hb).symm.trans hq)
    subst this
    rw [← Except.ok.inj k2, Expr_mean_query, CE_mean_sub, hm]
  | .case v ws el, hk, e, h => by
    rw [CE_kept_case, Bool.and_eq_true, Bool.and_eq_true] at hk
    rw [CE_conv_case] at h
    obtain ⟨a, ha, k1⟩ := bind_ok h
    obtain ⟨b, hb, k2⟩ := bind_ok k1
    obtain ⟨c, hc, k3⟩ := bind_ok k2
    rw [build_inv k3, Expr_mean_case, CE_mean_case, cm_whens ws hk.2.1 a ha, cm_opt v hk.1 b (drop_kept hk.1 hb), cm_opt el hk.2.2 c hc]
  | .cast tr v ty ts, hk, e, h => by
    rw [CE_kept_cast] at hk
    rw [CE_conv_cast] at h
    obtain ⟨a, ha, k1⟩ := bind_ok h
    obtain ⟨b, hb, k2⟩ := bind_ok k1
    rw [build_inv k2, Expr_mean_cast, CE_mean_cast, castMeaning, hb, cm_expr v hk a ha]
  | .array es, hk, e, h => by
    rw [CE_kept_array] at hk
    rw [CE_conv_array] at h
    obtain ⟨a, ha, k1⟩ := bind_ok h
    rw [build_inv k1, Expr_mean_array, CE_mean_array, cm_exprs es hk a ha]
  | .subscript v i, hk, e, h => by
    rw [CE_kept_subscript, Bool.and_eq_true] at hk
    rw [CE_conv_subscript] at h
    obtain ⟨a, ha, k1⟩ := bind_ok h
    obtain ⟨b, hb, k2⟩ := bind_ok k1
    rw [build_inv k2, Expr_mean_subscript, CE_mean_subscript, cm_expr v hk.1 a ha, cm_expr i hk.2 b hb]
  | .col t, hk, e, h => by
    rw [CE_kept_col] at hk
    rw [CE_conv_col] at h
    obtain ⟨a, ha, k1⟩ := bind_ok h
    rw [build_inv k1, Expr_mean_field, CE_mean_col, name_mean hk ha]; rfl
  | .deref v n, hk, e, h => by
    rw [CE_kept_deref, Bool.and_eq_true, Bool.and_eq_true] at hk
    rw [CE_conv_deref] at h
    obtain ⟨a, ha, k1⟩ := bind_ok h
    obtain ⟨b, hb, k2⟩ := bind_ok k1
    rw [CE_mean_deref]
    exact deref_mean hk.1 hk.2.2 ha hk.2.1 hb k2 (cm_expr v hk.2.1 a ha)
  | .dateTime t p, hk, e, h => by
    rw [CE_conv_dateTime] at h
    rw [CE_mean_dateTime]
    exact datetime_mean h
  | .session t, hk, e, h => by
    rw [CE_conv_session] at h
    rw [CE_mean_session]
    exact session_kept h
  | .normalize v f, hk, e, h => by
    rw [CE_kept_normalize] at hk
    rw [CE_conv_normalize] at h
    obtain ⟨a, ha, k1⟩ := bind_ok h
    obtain ⟨b, hb, k2⟩ := bind_ok k1
    rw [build_inv k2, Expr_mean_normalize, CE_mean_normalize, form_mean hb, cm_expr v hk a ha]
  | .paren v, hk, e, h => by
    rw [CE_kept_paren] at hk
    rw [CE_conv_paren] at h
    rw [CE_mean_paren]
    exact cm_expr v hk e h
  | .exists_ _, hk, _, _ => nomatch hk
  | .position _ _, hk, _, _ => nomatch hk
  | .substring _ _ _, hk, _, _ => nomatch hk
  | .extract _ _, hk, _, _ => nomatch hk
  | .trimFrom _ _ _, hk, _, _ => nomatch hk
  | .trim _ _, hk, _, _ => nomatch hk
  | .grouping _, hk, _, _ => nomatch hk
theorem cm_length : ∀ (cs : List CE) (es : List Expr), CE.convs cs = .ok es → es.length = cs.length
  | [], es, h => by rw [CE_convs_nil] at h; rw [← Except.ok.inj h]; rfl
  | c :: cs, es, h => by
    rw [CE_convs_cons] at h
    obtain ⟨a, ha, k1⟩ := bind_ok h
    obtain ⟨b, hb, k2⟩ := bind_ok k1
    rw [← Except.ok.inj k2, List.length_cons, List.length_cons, cm_length cs b hb]
theorem cm_opt : ∀ (c : Option CE), CE.keptOpt c = true → ∀ e, CE.convOpt c = .ok e → Expr.meanOpt M e = CE.meanOpt M c
  | none, _, e, h => by rw [CE_convOpt_none] at h; rw [← Except.ok.inj h]; rfl
  | some c, hk, e, h => by
    rw [CE_keptOpt_some] at hk
    rw [CE_convOpt_some] at h
    obtain ⟨a, ha, k1⟩ := bind_ok h
    rw [← Except.ok.inj k1, Expr_meanOpt_some, CE_meanOpt_some, cm_expr c hk a ha]
theorem cm_exprs : ∀ (cs : List CE), CE.kepts cs = true → ∀ es, CE.convs cs = .ok es → Expr.means M es = CE.means M cs
  | [], _, es, h => by rw [CE_convs_nil] at h; rw [← Except.ok.inj h]; rfl
  | c :: cs, hk, es, h => by
    rw [CE_kepts_cons, Bool.and_eq_true] at hk
    rw [CE_convs_cons] at h
    obtain ⟨a, ha, k1⟩ := bind_ok h
    obtain ⟨b, hb, k2⟩ := bind_ok k1
    rw [← Except.ok.inj k2, Expr_means_cons, CE_means_cons, cm_expr c hk.1 a ha, cm_exprs cs hk.2 b hb]
theorem cm_whens : ∀ (cs : List CWhen), CWhen.kepts cs = true → ∀ es, CWhen.convs cs = .ok es → Expr.meanWhens M es = CWhen.means M cs
  | [], _, es, h => by rw [CWhen_convs_nil] at h; rw [← Except.ok.inj h]; rfl
  | .mk c v :: cs, hk, es, h => by
    rw [CWhen_kepts_cons, Bool.and_eq_true, Bool.and_eq_true] at hk
    rw [CWhen_convs_cons] at h
    obtain ⟨a, ha, k1⟩ := bind_ok h
    obtain ⟨b, hb, k2⟩ := bind_ok k1
    obtain ⟨d, hd, k3⟩ := bind_ok k2
    rw [← Except.ok.inj k3, Expr_meanWhens_cons, CWhen_means_cons, cm_expr c hk.1 a ha, cm_expr v hk.2.1 b hb, cm_whens cs hk.2.2 d hd]
theorem cm_sorts : ∀ (cs : List CSort), CSort.kepts cs = true → ∀ es, CSort.convs cs = .ok es → Ord.means M es = CSort.means M cs
  | [], _, es, h => by rw [CSort_convs_nil] at h; rw [← Except.ok.inj h]; rfl
  | .mk c o n :: cs, hk, es, h => by
    rw [CSort_kepts_cons, Bool.and_eq_true] at hk
    rw [CSort_convs_cons] at h
    obtain ⟨a, ha, k1⟩ := bind_ok h
    obtain ⟨b, hb, k2⟩ := bind_ok k1
    rw [← Except.ok.inj k2, Ord_means_cons, Ord_mean_mk, CSort_means_cons, cm_expr c hk.1 a ha, cm_sorts cs hk.2 b hb, desc_mean, first_mean]
theorem cm_bound : ∀ (c : CBound), c.kept = true → ∀ b, c.conv = .ok b → b.mean M = c.mean M
  | .unbounded t, _, b, h => by
    rw [CBound_conv_unbounded] at h
    obtain ⟨a, ha, k1⟩ := bind_ok h
    rw [← Except.ok.inj k1, Bound_mean_unbounded, CBound_mean_unbounded, bound_kept ha]
  | .current, _, b, h => by
    rw [CBound_conv_current] at h
    rw [← Except.ok.inj h]; rfl
  | .bounded e t, hk, b, h => by
    rw [CBound_kept_bounded] at hk
    rw [CBound_conv_bounded] at h
    obtain ⟨a, ha, k1⟩ := bind_ok h
    obtain ⟨x, hx, k2⟩ := bind_ok k1
    rw [← Except.ok.inj k2, Bound_mean_bounded, CBound_mean_bounded, bound_kept ha, cm_expr e hk x hx]
theorem cm_frame : ∀ (c : CFrame), c.kept = true → ∀ f, c.conv = .ok f →
    [f.2.1.mean M, f.2.2.mean M] = (match c.mean M with | some x => x.2 | none => defaultFrame) ∧
    f.1 = (match c.mean M with | some x => x.1 | none => .range)
  | .none, _, f, h => by
    rw [CFrame_conv_none] at h
    rw [← Except.ok.inj h]; exact ⟨rfl, rfl⟩
  | .from_ t b, hk, f, h => by
    rw [CFrame_kept_from_] at hk
    rw [CFrame_conv_from_] at h
    obtain ⟨a, ha, k1⟩ := bind_ok h
    obtain ⟨x, hx, k2⟩ := bind_ok k1
    rw [← Except.ok.inj k2, CFrame_mean_from_, cm_bound b hk x hx]
    exact ⟨rfl, frame_kept ha⟩
  | .between t b c, hk, f, h => by
    rw [CFrame_kept_between, Bool.and_eq_true] at hk
    rw [CFrame_conv_between] at h
    obtain ⟨a, ha, k1⟩ := bind_ok h
    obtain ⟨x, hx, k2⟩ := bind_ok k1
    obtain ⟨y, hy, k3⟩ := bind_ok k2
    rw [← Except.ok.inj k3, CFrame_mean_between, cm_bound b hk.1 x hx, cm_bound c hk.2 y hy]
    exact ⟨rfl, frame_kept ha⟩
theorem cm_win : ∀ (c : CWin), c.kept = true → ∀ w, c.conv = .ok w → w.mean M = c.mean M
  | .ref t, hk, w, h => nomatch hk
  | .spec p ps ob fr, hk, w, h => by
    rw [CWin_kept_spec, Bool.and_eq_true, Bool.and_eq_true, Bool.and_eq_true, Bool.and_eq_true] at hk
    rw [CWin_conv_spec] at h
    obtain ⟨a, ha, k1⟩ := bind_ok h
    obtain ⟨b, hb, k2⟩ := bind_ok k1
    obtain ⟨c, hc, k3⟩ := bind_ok k2
    obtain ⟨d, hd, k4⟩ := bind_ok k3
    have hf := cm_frame fr hk.2.2.2.2 a ha
    rw [← Except.ok.inj k4, Win_mean_mk, CWin_mean_spec, cm_sorts ob hk.2.2.2.1 b hb, cm_exprs ps hk.2.2.1 c hc, (prefix_mean hk.1 hd).2]
    exact window_kept hk.2.1 hf.1 hf.2
theorem cm_wopt : ∀ (c : Option CWin), CWin.keptOpt c = true → ∀ e, CWin.convOpt c = .ok e → Win.meanOpt M e = CWin.meanOpt M c
  | none, _, e, h => by rw [CWin_convOpt_none] at h; rw [← Except.ok.inj h]; rfl
  | some c, hk, e, h => by
    rw [CWin_keptOpt_some] at hk
    rw [CWin_convOpt_some] at h
    obtain ⟨a, ha, k1⟩ := bind_ok h
    rw [← Except.ok.inj k1, Win_meanOpt_some, CWin_meanOpt_some, cm_win c hk a ha]
theorem cm_set : ∀ (c : CSet), c.kept = true → ∀ es, c.conv = .ok es → M.op .group (Expr.means M es) = c.mean M
  | .paren cs, hk, es, h => by
    rw [CSet_kept_paren] at hk
    rw [CSet_conv_paren] at h
    rw [CSet_mean_paren, cm_exprs cs hk es h]
  | .expr c, hk, es, h => by
    rw [CSet_kept_expr] at hk
    rw [CSet_conv_expr] at h
    obtain ⟨a, ha, k1⟩ := bind_ok h
    rw [← Except.ok.inj k1, Expr_means_cons, Expr_means_nil, CSet_mean_expr, cm_expr c hk a ha]
theorem cm_sets : ∀ (cs : List CSet), CSet.kepts cs = true → ∀ gs, CSet.convs cs = .ok gs → Expr.meanLists M gs = CSet.means M cs
  | [], _, es, h => by rw [CSet_convs_nil] at h; rw [← Except.ok.inj h]; rfl
  | c :: cs, hk, es, h => by
    rw [CSet_kepts_cons, Bool.and_eq_true] at hk
    rw [CSet_convs_cons] at h
    obtain ⟨a, ha, k1⟩ := bind_ok h
    obtain ⟨b, hb, k2⟩ := bind_ok k1
    rw [← Except.ok.inj k2, Expr_meanLists_cons, CSet_means_cons, cm_set c hk.1 a ha, cm_sets cs hk.2 b hb]
theorem cm_grp : ∀ (c : CGrp), c.kept = true → ∀ g, c.conv = .ok g → g.mean M = c.mean M
  | .single s, hk, g, h => by
    rw [CGrp_kept_single] at hk
    rw [CGrp_conv_single] at h
    obtain ⟨a, ha, k1⟩ := bind_ok h
    rw [gbuild_inv k1, Grp_mean_set, CGrp_mean_single, cm_set s hk a ha]
  | .rollup es, hk, g, h => by
    rw [CGrp_kept_rollup] at hk
    rw [CGrp_conv_rollup] at h
    obtain ⟨a, ha, k1⟩ := bind_ok h
    rw [gbuild_inv k1, Grp_mean_rollup, CGrp_mean_rollup, cm_exprs es hk a ha]
  | .cube es, hk, g, h => by
    rw [CGrp_kept_cube] at hk
    rw [CGrp_conv_cube] at h
    obtain ⟨a, ha, k1⟩ := bind_ok h
    rw [gbuild_inv k1, Grp_mean_cube, CGrp_mean_cube, cm_exprs es hk a ha]
  | .sets ss, hk, g, h => by
    rw [CGrp_kept_sets] at hk
    rw [CGrp_conv_sets] at h
    obtain ⟨a, ha, k1⟩ := bind_ok h
    rw [gbuild_inv k1, Grp_mean_sets, CGrp_mean_sets, cm_sets ss hk a ha]
theorem cm_grps : ∀ (cs : List CGrp), CGrp.kepts cs = true → ∀ es, CGrp.convs cs = .ok es → Grp.means M es = CGrp.means M cs
  | [], _, es, h => by rw [CGrp_convs_nil] at h; rw [← Except.ok.inj h]; rfl
  | c :: cs, hk, es, h => by
    rw [CGrp_kepts_cons, Bool.and_eq_true] at hk
    rw [CGrp_convs_cons] at h
    obtain ⟨a, ha, k1⟩ := bind_ok h
    obtain ⟨b, hb, k2⟩ := bind_ok k1
    rw [← Except.ok.inj k2, Grp_means_cons, CGrp_means_cons, cm_grp c hk.1 a ha, cm_grps cs hk.2 b hb]
theorem cm_item : ∀ (c : CItem), c.kept = true → ∀ e, c.conv = .ok e → e.mean M = c.mean M
  | .expr v as_ a, hk, e, h => by
    rw [CItem_kept_expr, Bool.and_eq_true] at hk
    rw [CItem_conv_expr] at h
    obtain ⟨x, hx, k1⟩ := bind_ok h
    obtain ⟨n, hn, k2⟩ := bind_ok k1
    rw [alias_mean hk.2 hn k2, CItem_mean_expr, cm_expr v hk.1 x hx]
  | .allOf v cols, hk, e, h => by
    rw [CItem_kept_allOf, Bool.and_eq_true, Bool.and_eq_true] at hk
    rw [CItem_conv_allOf] at h
    obtain ⟨x, hx, k1⟩ := bind_ok h
    obtain ⟨s, hs, k2⟩ := bind_ok k1
    obtain ⟨cs, hcs, k3⟩ := bind_ok k2
    rw [CItem_mean_allOf]
    exact allOf_mean hk.1 hk.2.2 hx hk.2.1 hs hcs k3 (cm_expr v hk.2.1 x hx)
  | .all, hk, e, h => by
    rw [CItem_conv_all] at h
    rw [build_inv h]; rfl
theorem cm_items : ∀ (cs : List CItem), CItem.kepts cs = true → ∀ es, CItem.convs cs = .ok es → Expr.means M es = CItem.means M cs
  | [], _, es, h => by rw [CItem_convs_nil] at h; rw [← Except.ok.inj h]; rfl
  | c :: cs, hk, es, h => by
    rw [CItem_kepts_cons, Bool.and_eq_true] at hk
    rw [CItem_convs_cons] at h
    obtain ⟨a, ha, k1⟩ := bind_ok h
    obtain ⟨b, hb, k2⟩ := bind_ok k1
    rw [← Except.ok.inj k2, Expr_means_cons, CItem_means_cons, cm_item c hk.1 a ha, cm_items cs hk.2 b hb]
theorem cm_wins : ∀ (cs : List CWinDef), CWinDef.kepts cs = true → ∀ es, CWinDef.convs cs = .ok es →
    Win.meanNamed M es = CWinDef.means M cs ∧ es.map Prod.fst = windowNames cs
  | [], _, es, h => by rw [CWinDef_convs_nil] at h; rw [← Except.ok.inj h]; exact ⟨rfl, rfl⟩
  | .mk n w :: cs, hk, es, h => by
    rw [CWinDef_kepts_cons, Bool.and_eq_true, Bool.and_eq_true] at hk
    rw [CWinDef_convs_cons] at h
    obtain ⟨s, hs, k1⟩ := bind_ok h
    obtain ⟨a, ha, k2⟩ := bind_ok k1
    obtain ⟨b, hb, k3⟩ := bind_ok k2
    have ih := cm_wins cs hk.2.2 b hb
    rw [← Except.ok.inj k3, Win_meanNamed_cons, CWinDef_means_cons, cm_win w hk.2.1 a ha, ih.1, name_mean hk.1 hs]
    exact ⟨rfl, by rw [List.map_cons, ih.2]; rfl⟩
theorem cm_query : ∀ (c : CQ), c.kept = true → ∀ x, c.conv = .ok x → ∃ q, x = some q ∧ q.mean M = c.mean M
  | .mk rc w b, hk, x, h => by
    rw [CQ_kept_mk, Bool.and_eq_true] at hk
    rw [CQ_conv_mk] at h
    obtain ⟨q, hq, k1⟩ := bind_ok h
    cases rc with
    | true => exact nomatch k1
    | false =>
      obtain ⟨ns, hns, k2⟩ := bind_ok (k1 : (CNamed.convs w >>= _) = _)
      obtain ⟨bd, off, lim, ob, rfl, hm⟩ := cm_noWith b hk.2 q hq
      obtain ⟨q', rfl, hm'⟩ := with_kept (M := M) rfl k2
      refine ⟨q', rfl, ?_⟩
      rw [hm', CQ_mean_mk, cm_named w hk.1 ns hns, hm]
theorem cm_named : ∀ (cs : List CNamed), CNamed.kepts cs = true → ∀ ns, CNamed.convs cs = .ok ns → Named.meanWiths M ns = CNamed.means M cs
  | [], _, es, h => by rw [CNamed_convs_nil] at h; rw [← Except.ok.inj h]; rfl
  | .mk n cols q :: cs, hk, es, h => by
    rw [CNamed_kepts_cons, Bool.and_eq_true, Bool.and_eq_true, Bool.and_eq_true] at hk
    rw [CNamed_convs_cons] at h
    obtain ⟨c, hc, k1⟩ := bind_ok h
    obtain ⟨x, hx, k2⟩ := bind_ok k1
    obtain ⟨q', hq', k3⟩ := bind_ok k2
    obtain ⟨a, ha, k4⟩ := bind_ok k3
    obtain ⟨b, hb, k5⟩ := bind_ok k4
    obtain ⟨q'', hq, hm⟩ := cm_query q hk.2.2.1 x hx
    have : q' = q'' := Option.some.inj ((noneIs_inv hq').symm.trans hq)
    subst this
    rw [← Except.ok.inj k5, Named_meanWiths_cons, Named_meanWith_mk, Rel_mean_query, CNamed_means_cons, cm_named cs hk.2.2.2 b hb, hm,
      name_mean hk.1 ha, names_mean hk.2.1 hc]
theorem cm_noWith : ∀ (c : CQN), c.kept = true → ∀ x, c.conv = .ok x →
    ∃ b off lim ob, x = some (.mk b off lim ob []) ∧ (Query.mk b off lim ob []).mean M = c.mean M
  | .mk t ob off lim, hk, x, h => by
    rw [CQN_kept_mk, Bool.and_eq_true, Bool.and_eq_true] at hk
    rw [CQN_conv_mk] at h
    obtain ⟨q, hq, k1⟩ := bind_ok h
    obtain ⟨o, ho, k2⟩ := bind_ok k1
    obtain ⟨q1, h1, k3⟩ := bind_ok k2
    obtain ⟨q2, h2, k4⟩ := bind_ok k3
    obtain ⟨b, rfl, hm⟩ := cm_term t hk.1 q hq
    rw [order_kept h1] at h2
    rw [offset_kept h2] at k4
    obtain ⟨n, rfl, hn⟩ := limit_kept (M := M) hk.2.2 k4
    refine ⟨_, _, _, _, rfl, ?_⟩
    rw [Query_mean_mk, CQN_mean_mk, hn, cm_sorts ob hk.2.1 o ho, hm]; rfl
theorem cm_term : ∀ (c : CQT), c.kept = true → ∀ x, c.conv = .ok x → ∃ b, x = some (.mk b none none [] []) ∧ b.mean M = c.mean M
  | .set op quant l r, hk, x, h => by
    rw [CQT_kept_set, Bool.and_eq_true] at hk
    rw [CQT_conv_set] at h
    obtain ⟨a, ha, k1⟩ := bind_ok h
    obtain ⟨b, hb, k2⟩ := bind_ok k1
    obtain ⟨d, hd, k3⟩ := bind_ok k2
    obtain ⟨k, hkd, k4⟩ := bind_ok k3
    obtain ⟨a', ha', k5⟩ := bind_ok k4
    obtain ⟨b', hb', k6⟩ := bind_ok k5
    obtain ⟨q, hq, k7⟩ := bind_ok k6
    obtain ⟨la, hla, hma⟩ := cm_term l hk.1 a ha
    obtain ⟨rb, hrb, hmb⟩ := cm_term r hk.2 b hb
    have e1 : a' = _ := Option.some.inj ((noneIs_inv ha').symm.trans hla)
    have e2 : b' = _ := Option.some.inj ((noneIs_inv hb').symm.trans hrb)
    subst e1; subst e2
    refine ⟨_, by rw [← Except.ok.inj k7, qbuild_inv hq], ?_⟩
    rw [QBody_mean_set, CQT_mean_set, query_plain, query_plain, hma, hmb, kind_mean hkd, quant_mean hd]
  | .spec quant items fr wh gq gs hv wins, hk, x, h => by
    rw [CQT_kept_spec, Bool.and_eq_true, Bool.and_eq_true, Bool.and_eq_true, Bool.and_eq_true, Bool.and_eq_true, Bool.and_eq_true,
      decide_eq_true_eq] at hk
    rw [CQT_conv_spec] at h
    obtain ⟨is, his, k1⟩ := bind_ok h
    obtain ⟨rs, hrs, k2⟩ := bind_ok k1
    obtain ⟨f, hf, k3⟩ := bind_ok k2
    obtain ⟨d, hd, k4⟩ := bind_ok k3
    obtain ⟨w, hw, k5⟩ := bind_ok k4
    obtain ⟨hh, hhh, k6⟩ := bind_ok k5
    obtain ⟨g, hg, k7⟩ := bind_ok k6
    obtain ⟨gd, hgd, k8⟩ := bind_ok k7
    obtain ⟨ws, hws, k9⟩ := bind_ok k8
    obtain ⟨q, hq, k10⟩ := bind_ok k9
    obtain ⟨rs', rfl, hrm⟩ := cm_rels fr hk.2.1 rs hrs
    have hwn := cm_wins wins hk.2.2.2.2.2.1 ws hws
    refine ⟨_, by rw [← Except.ok.inj k10, qbuild_inv hq], ?_⟩
    rw [QBody_mean_select, CQT_mean_spec, cm_items items hk.1 is his, from_mean hf, hrm, cm_opt wh hk.2.2.1 w (drop_kept hk.2.2.1 hw), quant_mean hgd,
      groupBy_mean, cm_grps gs hk.2.2.2.1 g hg, cm_opt hv hk.2.2.2.2.1 hh (drop_kept hk.2.2.2.2.1 hhh), dictOf_kept hk.2.2.2.2.2.2 hwn.2, hwn.1, quant_mean hd]
  | .table name, hk, x, h => by
    rw [CQT_kept_table] at hk
    rw [CQT_conv_table] at h
    obtain ⟨a, ha, k1⟩ := bind_ok h
    obtain ⟨t, ht, k2⟩ := bind_ok k1
    obtain ⟨q, hq, k3⟩ := bind_ok k2
    refine ⟨_, by rw [← Except.ok.inj k3, qbuild_inv hq], ?_⟩
    rw [QBody_mean_table, CQT_mean_table, table_kept hk ha ht]
  | .values es, hk, x, h => by
    rw [CQT_kept_values] at hk
    rw [CQT_conv_values] at h
    obtain ⟨a, ha, k1⟩ := bind_ok h
    obtain ⟨q, hq, k2⟩ := bind_ok k1
    refine ⟨_, by rw [← Except.ok.inj k2, qbuild_inv hq], ?_⟩
    rw [QBody_mean_values, CQT_mean_values, cm_exprs es hk a ha]
  | .sub q, hk, x, h => nomatch hk
theorem cm_rel : ∀ (c : CR), c.kept = true → ∀ x, c.conv = .ok x → ∃ r, x = some r ∧ r.mean M = c.mean M
  | .cross l r, hk, x, h => by
    rw [CR_kept_cross, Bool.and_eq_true] at hk
    rw [CR_conv_cross] at h
    obtain ⟨a, ha, k1⟩ := bind_ok h
    obtain ⟨b, hb, k2⟩ := bind_ok k1
    obtain ⟨a', ha', k3⟩ := bind_ok k2
    obtain ⟨b', hb', k4⟩ := bind_ok k3
    obtain ⟨y, hy, k5⟩ := bind_ok k4
    obtain ⟨la, hla, hma⟩ := cm_rel l hk.1 a ha
    obtain ⟨rb, hrb, hmb⟩ := cm_rel r hk.2 b hb
    have e1 : a' = _ := Option.some.inj ((noneIs_inv ha').symm.trans hla)
    have e2 : b' = _ := Option.some.inj ((noneIs_inv hb').symm.trans hrb)
    subst e1; subst e2
    refine ⟨_, by rw [← Except.ok.inj k5, rbuild_inv hy], ?_⟩
    rw [Rel_mean_join, CR_mean_cross, hma, hmb]; rfl
  | .natural l t r, hk, x, h => by
    rw [CR_kept_natural, Bool.and_eq_true] at hk
    rw [CR_conv_natural] at h
    obtain ⟨a, ha, k1⟩ := bind_ok h
    obtain ⟨b, hb, k2⟩ := bind_ok k1
    obtain ⟨a', ha', k3⟩ := bind_ok k2
    obtain ⟨b', hb', k4⟩ := bind_ok k3
    obtain ⟨y, hy, k5⟩ := bind_ok k4
    obtain ⟨la, hla, hma⟩ := cm_rel l hk.1 a ha
    obtain ⟨rb, hrb, hmb⟩ := cm_rel r hk.2 b hb
    have e1 : a' = _ := Option.some.inj ((noneIs_inv ha').symm.trans hla)
    have e2 : b' = _ := Option.some.inj ((noneIs_inv hb').symm.trans hrb)
    subst e1; subst e2
    refine ⟨_, by rw [← Except.ok.inj k5, rbuild_inv hy], ?_⟩
    rw [Rel_mean_join, CR_mean_natural, hma, hmb, join_kept]; rfl
  | .join l t r c, hk, x, h => by
    rw [CR_kept_join, Bool.and_eq_true, Bool.and_eq_true] at hk
    rw [CR_conv_join] at h
    obtain ⟨a, ha, k1⟩ := bind_ok h
    obtain ⟨b, hb, k2⟩ := bind_ok k1
    obtain ⟨c', hc', k3⟩ := bind_ok k2
    obtain ⟨a', ha', k4⟩ := bind_ok k3
    obtain ⟨b', hb', k5⟩ := bind_ok k4
    obtain ⟨y, hy, k6⟩ := bind_ok k5
    obtain ⟨la, hla, hma⟩ := cm_rel l hk.1 a ha
    obtain ⟨rb, hrb, hmb⟩ := cm_rel r hk.2.1 b hb
    have e1 : a' = _ := Option.some.inj ((noneIs_inv ha').symm.trans hla)
    have e2 : b' = _ := Option.some.inj ((noneIs_inv hb').symm.trans hrb)
    subst e1; subst e2
    refine ⟨_, by rw [← Except.ok.inj k6, rbuild_inv hy], ?_⟩
    rw [Rel_mean_join, CR_mean_join, hma, hmb, join_kept, Crit_meanOpt_some, cm_crit c hk.2.2 c' hc']; rfl
  | .sample r t e, hk, x, h => by
    rw [CR_kept_sample, Bool.and_eq_true] at hk
    rw [CR_conv_sample] at h
    obtain ⟨a, ha, k1⟩ := bind_ok h
    obtain ⟨k, hkk, k2⟩ := bind_ok k1
    obtain ⟨p, hp, k3⟩ := bind_ok k2
    obtain ⟨a', ha', k4⟩ := bind_ok k3
    obtain ⟨y, hy, k5⟩ := bind_ok k4
    obtain ⟨la, hla, hma⟩ := cm_rel r hk.1 a ha
    have e1 : a' = _ := Option.some.inj ((noneIs_inv ha').symm.trans hla)
    subst e1
    refine ⟨_, by rw [← Except.ok.inj k5, rbuild_inv hy], ?_⟩
    rw [Rel_mean_sample, CR_mean_sample, hma, sample_kept hkk, cm_expr e hk.2 p hp]
  | .alias r as_ n cols, hk, x, h => by
    rw [CR_kept_alias, Bool.and_eq_true, Bool.and_eq_true] at hk
    rw [CR_conv_alias] at h
    obtain ⟨a, ha, k1⟩ := bind_ok h
    obtain ⟨s, hs, k2⟩ := bind_ok k1
    obtain ⟨cs, hcs, k3⟩ := bind_ok k2
    obtain ⟨a', ha', k4⟩ := bind_ok k3
    obtain ⟨y, hy, k5⟩ := bind_ok k4
    obtain ⟨la, hla, hma⟩ := cm_rel r hk.1 a ha
    have e1 : a' = _ := Option.some.inj ((noneIs_inv ha').symm.trans hla)
    subst e1
    refine ⟨_, by rw [← Except.ok.inj k5, rbuild_inv hy], ?_⟩
    rw [Rel_mean_aliased, Named_mean_mk, CR_mean_alias, hma, name_mean hk.2.1 hs, names_mean hk.2.2 hcs]
  | .table name, hk, x, h => by
    rw [CR_kept_table] at hk
    rw [CR_conv_table] at h
    obtain ⟨a, ha, k1⟩ := bind_ok h
    obtain ⟨t, ht, k2⟩ := bind_ok k1
    refine ⟨_, (Except.ok.inj k2).symm, ?_⟩
    rw [Rel_mean_table, CR_mean_table, table_kept hk ha ht]
  | .sub q, hk, x, h => by
    rw [CR_kept_sub] at hk
    rw [CR_conv_sub] at h
    obtain ⟨a, ha, k1⟩ := bind_ok h
    obtain ⟨q', rfl, hm⟩ := cm_query q hk a ha
    refine ⟨_, (Except.ok.inj k1).symm, ?_⟩
    rw [Rel_mean_query, CR_mean_sub, hm]
  | .unnest es ord, hk, x, h => by
    rw [CR_kept_unnest] at hk
    rw [CR_conv_unnest] at h
    obtain ⟨a, ha, k1⟩ := bind_ok h
    obtain ⟨y, hy, k2⟩ := bind_ok k1
    refine ⟨_, by rw [← Except.ok.inj k2, rbuild_inv hy], ?_⟩
    rw [Rel_mean_unnest, CR_mean_unnest, cm_exprs es hk a ha]
  | .lateral q, hk, x, h => by
    rw [CR_kept_lateral] at hk
    rw [CR_conv_lateral] at h
    obtain ⟨a, ha, k1⟩ := bind_ok h
    obtain ⟨b, hb, k2⟩ := bind_ok k1
    obtain ⟨y, hy, k3⟩ := bind_ok k2
    obtain ⟨q', hq, hm⟩ := cm_query q hk a ha
    have e1 : b = _ := Option.some.inj ((noneIs_inv hb).symm.trans hq)
    subst e1
    refine ⟨_, by rw [← Except.ok.inj k3, rbuild_inv hy], ?_⟩
    rw [Rel_mean_lateral, CR_mean_lateral, hm]
  | .paren r, hk, x, h => by
    rw [CR_kept_paren] at hk
    rw [CR_conv_paren] at h
    rw [CR_mean_paren]
    exact cm_rel r hk x h
theorem cm_rels : ∀ (cs : List CR), CR.kepts cs = true → ∀ xs, CR.convs cs = .ok xs →
    ∃ rs : List Rel, xs = rs.map some ∧ rs.map (Rel.mean M) = CR.means M cs
  | [], _, es, h => by rw [CR_convs_nil] at h; rw [← Except.ok.inj h]; exact ⟨[], rfl, rfl⟩
  | c :: cs, hk, es, h => by
    rw [CR_kepts_cons, Bool.and_eq_true] at hk
    rw [CR_convs_cons] at h
    obtain ⟨a, ha, k1⟩ := bind_ok h
    obtain ⟨b, hb, k2⟩ := bind_ok k1
    obtain ⟨r, rfl, hm⟩ := cm_rel c hk.1 a ha
    obtain ⟨rs, rfl, hms⟩ := cm_rels cs hk.2 b hb
    refine ⟨r :: rs, (Except.ok.inj k2).symm, ?_⟩
    rw [List.map_cons, hm, hms, CR_means_cons]
theorem cm_crit : ∀ (c : CCrit), c.kept = true → ∀ x, c.conv = .ok x → x.mean M = c.mean M
  | .on e, hk, x, h => by
    rw [CCrit_kept_on] at hk
    rw [CCrit_conv_on] at h
    obtain ⟨a, ha, k1⟩ := bind_ok h
    rw [← Except.ok.inj k1, Crit_mean_on, CCrit_mean_on, cm_expr e hk a ha]
  | .using cols, hk, x, h => by
    rw [CCrit_kept_using] at hk
    rw [CCrit_conv_using] at h
    obtain ⟨a, ha, k1⟩ := bind_ok h
    rw [← Except.ok.inj k1, Crit_mean_using, CCrit_mean_using, names_mean hk ha]
end

end Treeno
