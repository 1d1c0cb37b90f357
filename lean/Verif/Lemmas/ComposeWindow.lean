import Verif.Lemmas.ComposeParts
import Verif.Spec.ComposeWindow
/-!
# Reading calls with windows that are put together from texts
-/
set_option autoImplicit false
namespace Treeno
open Spec

/-! ## Frames -/

theorem side_read (f : Bool) : ∃ t : Tok, LexAs (sideText f) [t] ∧ t.isDirection = true ∧ boundOf t = .ok (sideOf f) ∧
    t.frank = none ∧ t.isSym (c% "->") = false := by
  cases f
  · exact ⟨kwT (c% "PRECEDING"), lexAs_kw (w := c% "RECEDING") (fun _ => rfl) rfl, by decide +kernel, rfl, by decide +kernel, rfl⟩
  · exact ⟨kwT (c% "FOLLOWING"), lexAs_kw (w := c% "OLLOWING") (fun _ => rfl) rfl, by decide +kernel, rfl, by decide +kernel, rfl⟩

/-- A bound is read whatever follows it. -/
theorem bound_read {a : BoundPart} {x : Bound} (h : BoundRead a x) :
    ∃ c ts, LexAs a.text ts ∧ (∀ Y, pBound P (ts ++ Y) = some (c, Y)) ∧ c.conv = .ok x ∧
      ∀ Y, kw (c% "BETWEEN") (ts ++ Y) = none := by
  cases h with
  | @unbounded f =>
    obtain ⟨t, t1, t2, t3, _, _⟩ := side_read f
    refine ⟨.unbounded t, _, (lexAs_kw (t := kwT (c% "UNBOUNDED")) (w := c% "NBOUNDED") (fun _ => rfl) rfl).app t1,
      fun Y => ?_, ?_, fun Y => rfl⟩
    · show pBound P (kwT (c% "UNBOUNDED") :: t :: Y) = _
      rw [pBound]
      refine ite_t ?_ ?_
      · show (Tok.isKw (c% "UNBOUNDED") (kwT (c% "UNBOUNDED")) && t.isDirection) = true
        rw [t2]; rfl
      · refine bind_s (a := (t, Y)) ?_ rfl
        show (if t.isDirection then _ else _) = _
        rw [t2]; rfl
    · rw [CBound_conv_unbounded, t3]; rfl
  | current =>
    exact ⟨.current, [kwT (c% "CURRENT"), kwT (c% "ROW")],
      (lexAs_kw (w := c% "URRENT") (fun _ => rfl) rfl).app (lexAs_word (w := c% "OW") (fun _ => rfl) rfl),
      fun Y => rfl, rfl, fun Y => rfl⟩
  | @rows s f e hs =>
    obtain ⟨t, t1, t2, t3, t4, t5⟩ := side_read f
    obtain ⟨c, hc, hv, hcl⟩ := text_is hs
    refine ⟨.bounded c t, _, lexAs_blank ((lexAs_par hcl).app t1), fun Y => ?_, ?_, fun Y => rfl⟩
    · rw [pt_app, List.nil_append, pt_app]
      show pBound P (pt (toks s) (t :: Y)) = _
      rw [pBound]
      refine ite_f (by cases toks s <;> rfl) (ite_f (by cases toks s <;> rfl) ?_)
      refine bind_s (operand_pt (by omega) hc (Stop.free (by rw [t4])) t5) ?_
      refine bind_s (a := (t, Y)) ?_ rfl
      show (if t.isDirection then _ else _) = _
      rw [t2]; rfl
    · rw [CBound_conv_bounded, t3, hv]; rfl

theorem frame_word (t : FrameType) : ∃ k : Tok, LexAs (frameLead t) [k] ∧ k.isFrame = true ∧ frameOf k = .ok t ∧
    k ∈ [kwT (c% "RANGE"), kwT (c% "ROWS"), kwT (c% "GROUPS")] := by
  cases t
  · exact ⟨kwT (c% "RANGE"), lexAs_kw (w := c% "ANGE") (fun _ => rfl) rfl, by decide +kernel, rfl, by simp⟩
  · exact ⟨kwT (c% "ROWS"), lexAs_kw (w := c% "OWS") (fun _ => rfl) rfl, by decide +kernel, rfl, by simp⟩
  · exact ⟨kwT (c% "GROUPS"), lexAs_kw (w := c% "ROUPS") (fun _ => rfl) rfl, by decide +kernel, rfl, by simp⟩

/-- What may follow the parts of a window. -/
def wClose : List Tok := [symT (c% ")")]
def wFrame : List Tok := [kwT (c% "RANGE"), kwT (c% "ROWS"), kwT (c% "GROUPS"), symT (c% ")")]
def wOrder : List Tok := kwT (c% "ORDER") :: wFrame
def wPart : List Tok := kwT (c% "PARTITION") :: wOrder

theorem part_frame {a : FramePart} {t : FrameType} {x y : Bound} (h : FrameRead a t x y) :
    ∃ c, PartR a.text (optFrame P) wFrame wClose c ∧ c.conv = .ok (t, x, y) := by
  cases h with
  | none =>
    refine ⟨.none, ⟨[], LexAs.nil, fun Y hY => ⟨?_, hY.sub (by decide +kernel)⟩⟩, rfl⟩
    show optFrame P Y = _
    rw [optFrame, hY.next _ (by decide +kernel)]
    rfl
  | @from_ _ b _ hb =>
    obtain ⟨k, k1, k2, k3, k4⟩ := frame_word t
    obtain ⟨c, ts, b1, b2, b3, b4⟩ := bound_read hb
    refine ⟨.from_ k c, ⟨_, k1.app b1, fun Y _ => ⟨?_, ?_⟩⟩, ?_⟩
    · show optFrame P (k :: (ts ++ Y)) = _
      rw [optFrame]
      refine ite_t k2 (bind_s (a := (k, ts ++ Y)) ?_ ?_)
      · show (if k.isFrame then _ else _) = _
        rw [k2]; rfl
      · dsimp only
        rw [b4]
        exact bind_s (b2 Y) rfl
    · exact .inr ⟨k, by simp only [List.mem_cons, List.not_mem_nil, or_false, wFrame] at k4 ⊢; rcases k4 with h | h | h <;> simp [h], _, rfl⟩
    · rw [CFrame_conv_from_, k3]
      exact ebind rfl (ebind b3 rfl)
  | @between _ a b _ _ ha hb =>
    obtain ⟨k, k1, k2, k3, k4⟩ := frame_word t
    obtain ⟨c, ts, a1, a2, a3, _⟩ := bound_read ha
    obtain ⟨d, us, b1, b2, b3, _⟩ := bound_read hb
    refine ⟨.between k c d, ⟨_, k1.app ((lexAs_kw (t := kwT (c% "BETWEEN")) (w := c% "ETWEEN") (fun _ => rfl) rfl).app
      (a1.app ((lexAs_kw (t := kwT (c% "AND")) (w := c% "ND") (fun _ => rfl) rfl).app b1))), fun Y _ => ⟨?_, ?_⟩⟩, ?_⟩
    · have e : [k] ++ ([kwT (c% "BETWEEN")] ++ (ts ++ ([kwT (c% "AND")] ++ us))) ++ Y =
          k :: kwT (c% "BETWEEN") :: (ts ++ (kwT (c% "AND") :: (us ++ Y))) := by simp
      rw [e, optFrame]
      refine ite_t k2 (bind_s (a := (k, kwT (c% "BETWEEN") :: (ts ++ (kwT (c% "AND") :: (us ++ Y))))) ?_ ?_)
      · show (if k.isFrame then _ else _) = _
        rw [k2]; rfl
      · show (pBound P (ts ++ (kwT (c% "AND") :: (us ++ Y))) >>= _) = _
        refine bind_s (a2 _) (bind_s (a := us ++ Y) rfl (bind_s (b2 Y) rfl))
    · exact .inr ⟨k, by simp only [List.mem_cons, List.not_mem_nil, or_false, wFrame] at k4 ⊢; rcases k4 with h | h | h <;> simp [h], _, rfl⟩
    · rw [CFrame_conv_between, k3]
      exact ebind rfl (ebind a3 (ebind b3 rfl))

/-! ## Windows -/

theorem lexAs_list {ss : List Str} (h : ∀ s ∈ ss, clean false (toks s) = true) : LexAs (parList ss) (ptList [] (ss.map toks)) := by
  intro y
  rw [toks_list h]
  generalize toks y = Y
  induction ss with
  | nil => rfl
  | cons s ss ih =>
    cases ss with
    | nil => exact (pt_app (toks s) [] Y).symm
    | cons t ss =>
      have := ih (fun u hu => h u (List.mem_cons_of_mem _ hu))
      show pt (toks s) (symT (c% ",") :: ptList Y ((t :: ss).map toks)) = pt (toks s) (symT (c% ",") :: ptList [] ((t :: ss).map toks)) ++ Y
      rw [pt_app, this]
      rfl

theorem ptList_app (Y : List Tok) : ∀ tss : List (List Tok), ptList [] tss ++ Y = ptList Y tss
  | [] => rfl
  | [ts] => pt_app ts [] Y
  | ts :: us :: tss => by
    show pt ts (symT (c% ",") :: ptList [] (us :: tss)) ++ Y = _
    rw [pt_app, List.cons_append, ptList_app Y (us :: tss)]
    rfl

theorem lexAs_partition : LexAs (c% " PARTITION BY ") [kwT (c% "PARTITION"), kwT (c% "BY")] :=
  (lexAs_kw (w := c% "ARTITION") (fun _ => rfl) rfl).app (lexAs_word (w := c% "Y") (fun _ => rfl) rfl)

theorem part_partition {ss : List Str} {es : List Expr} (h : Each Text ss es) :
    ∃ cs, PartR (listClause (c% " PARTITION BY ") (parList ss) ss.isEmpty) (optPartition P) wPart wOrder cs ∧ CE.convs cs = .ok es := by
  obtain ⟨cs, k1, k2, k3⟩ := each_read h
  cases ss with
  | nil =>
    cases k1
    refine ⟨[], ⟨[], LexAs.nil, fun Y hY => ⟨?_, hY.tail⟩⟩, k2⟩
    show optPartition P Y = _
    rw [optPartition, hY.kwNone _ (by decide +kernel)]
  | cons s ss =>
    refine ⟨cs, ⟨_, lexAs_partition.app (lexAs_list k3), fun Y hY => ⟨?_, Hd.first⟩⟩, k2⟩
    rw [List.append_assoc, ptList_app]
    show P .exprs (ptList Y ((s :: ss).map toks)) = _
    exact exprs_list (hY.stop (by decide +kernel) 0) (hY.nextSym _ (by decide +kernel)) (hY.symNone _ (by decide +kernel)) (by simp) k1

theorem win_read {w : WinPart} {x : Win} (h : WinRead w x) :
    ∃ c ts, LexAs w.text ts ∧ (∀ Y, P .win (ts ++ symT (c% ")") :: Y) = some (c, Y)) ∧ c.conv = .ok x := by
  obtain ⟨hn, hp, ho, hf⟩ := h
  obtain ⟨cp, ⟨tp, p1, p2⟩, p3⟩ := part_partition hp
  obtain ⟨co, ⟨to', o1, o2⟩, o3⟩ := part_sorts (after := wFrame) (by decide +kernel) (by decide +kernel) (by decide +kernel)
    (by decide +kernel) (by decide +kernel) (by decide +kernel) ho
  obtain ⟨cf, ⟨tf, f1, f2⟩, f3⟩ := part_frame hf
  have hname : ∃ (t : Option Tok) (tn : List Tok), LexAs (nameText w.parent) tn ∧
      (∀ Y, Hd wPart Y → optTok Tok.isWinName (tn ++ Y) = (t, Y)) ∧ identOpt t = .ok w.parent := by
    match hw : w.parent with
    | none => exact ⟨none, [], LexAs.nil, fun Y hY => hY.optTok _ (by decide +kernel), rfl⟩
    | some n =>
      have hq := hn n hw
      refine ⟨some (nameTok n), [nameTok n], lexAs_blank (lexAs_quoted hq), fun Y _ => rfl, ?_⟩
      show (identText (nameTok n) >>= _) = _
      rw [ident_quoted hq]; rfl
  obtain ⟨t, tn, n1, n2, n3⟩ := hname
  refine ⟨.spec t cp co cf, _, n1.app (p1.app (o1.app f1)), fun Y => ?_, ?_⟩
  · have hY : Hd wClose (symT (c% ")") :: Y) := Hd.first
    obtain ⟨f4, f5⟩ := f2 _ hY
    obtain ⟨o4, o5⟩ := o2 _ f5
    obtain ⟨p4, p5⟩ := p2 _ o5
    have n4 := n2 _ p5
    rw [List.append_assoc, List.append_assoc, List.append_assoc, P_win, pWin, n4]
    refine bind_s p4 (bind_s o4 (bind_s f4 (bind_s (a := Y) rfl rfl)))
  · rw [CWin_conv_spec]
    exact ebind f3 (ebind o3 (ebind p3 (ebind n3 rfl)))

theorem lexAs_over : LexAs (c% " OVER ") [kwT (c% "OVER")] := lexAs_kw (w := c% "VER") (fun _ => rfl) rfl

theorem over_read {o : OverPart} {x : Win} (h : OverRead o x) :
    ∃ c ts, LexAs o.text (kwT (c% "OVER") :: ts) ∧ optOver P (kwT (c% "OVER") :: ts) = some (some c, []) ∧ c.conv = .ok x := by
  cases h with
  | @name n hn =>
    refine ⟨.ref (nameTok n), [nameTok n], lexAs_over.app (lexAs_quoted hn), rfl, ?_⟩
    rw [CWin_conv_ref, ident_quoted hn]; rfl
  | @window w _ hw =>
    obtain ⟨c, ts, h1, h2, h3⟩ := win_read hw
    refine ⟨c, _, lexAs_over.app (lexAs_sym_open.app (h1.app lexAs_sym_close)), ?_, h3⟩
    show (P .win (ts ++ symT (c% ")") :: []) >>= _) = _
    exact bind_s (h2 []) rfl

theorem texts_check : ∀ {ss : List Str} {es : List Expr}, Each Text ss es → ∃ ts, Expr.checks es = .ok ts
  | _, _, .nil => ⟨[], rfl⟩
  | _, _, .cons h hs => by
    obtain ⟨ts, hts⟩ := texts_check hs
    obtain ⟨c, _, hv, _⟩ := text_is h
    obtain ⟨t, ht⟩ := made_CE c _ hv
    exact ⟨t :: ts, by rw [Expr_checks_cons, ht, hts]; rfl⟩

theorem bound_check {a : BoundPart} {x : Bound} (h : BoundRead a x) : x.check = .ok () := by
  cases h with
  | unbounded => rfl
  | current => rfl
  | rows hs =>
    obtain ⟨c, _, hv, _⟩ := text_is hs
    obtain ⟨t, ht⟩ := made_CE c _ hv
    rw [Bound_check_bounded, ht]; rfl

theorem frame_check {f : FramePart} {t : FrameType} {x y : Bound} (h : FrameRead f t x y) :
    (do x.check; y.check : Except Err Unit) = .ok () := by
  cases h with
  | none => rfl
  | from_ ha => exact ebind (bound_check ha) rfl
  | between ha hb => exact ebind (bound_check ha) (bound_check hb)

theorem win_check {w : WinPart} {x : Win} (h : WinRead w x) : x.check = .ok () := by
  obtain ⟨_, hp, ho, hf⟩ := h
  obtain ⟨co, _, o3⟩ := part_sorts (after := wFrame) (by decide +kernel) (by decide +kernel) (by decide +kernel)
    (by decide +kernel) (by decide +kernel) (by decide +kernel) ho
  obtain ⟨ts, hts⟩ := texts_check hp
  rw [Win_check_mk]
  refine ebind (made_CSorts _ _ o3) (ebind hts ?_)
  exact frame_check hf

/-! ## Calls -/

theorem overs_read {o : Option (Option Bool × OverPart)} {w : Option Win} {ign : Bool} (h : OverOpt o w ign) :
    ∃ n c ts, LexAs (overText o) ts ∧ optNullsOver P ts = some ((n, c), []) ∧ CWin.convOpt c = .ok w ∧ (n == some true) = ign ∧
      next2 (Tok.isKw (c% "FILTER")) (Tok.isSym (c% "(")) ts = false := by
  cases h with
  | none => exact ⟨none, none, [], LexAs.nil, rfl, rfl, rfl, rfl⟩
  | @some n o x hx =>
    obtain ⟨c, ts, h1, h2, h3⟩ := over_read hx
    have h4 : CWin.convOpt (some c) = .ok (some x) := by rw [CWin_convOpt_some, h3]; rfl
    match n with
    | none =>
      refine ⟨none, some c, _, h1, ?_, h4, rfl, by cases ts <;> rfl⟩
      rw [optNullsOver]
      have : optNulls (kwT (c% "OVER") :: ts) = (none, kwT (c% "OVER") :: ts) := by cases ts <;> rfl
      rw [this]
      exact bind_s h2 rfl
    | some true =>
      refine ⟨some true, some c, _, ((lexAs_kw (t := kwT (c% "IGNORE")) (w := c% "GNORE") (fun _ => rfl) rfl).app
        (lexAs_word (t := kwT (c% "NULLS")) (w := c% "ULLS") (fun _ => rfl) rfl)).app h1, ?_, h4, rfl, rfl⟩
      show (optOver P (kwT (c% "OVER") :: ts) >>= _) = _
      exact bind_s h2 rfl
    | some false =>
      refine ⟨some false, some c, _, ((lexAs_kw (t := kwT (c% "RESPECT")) (w := c% "ESPECT") (fun _ => rfl) rfl).app
        (lexAs_word (t := kwT (c% "NULLS")) (w := c% "ULLS") (fun _ => rfl) rfl)).app h1, ?_, h4, rfl, rfl⟩
      show (optOver P (kwT (c% "OVER") :: ts) >>= _) = _
      exact bind_s h2 rfl

theorem over_opt_read {o : Option OverPart} {w : Option Win} (h : OverOpt (o.map fun o => (none, o)) w false) :
    ∃ c ts, LexAs (overText (o.map fun o => (none, o))) ts ∧ optOver P ts = some (c, []) ∧ CWin.convOpt c = .ok w ∧
      next2 (Tok.isKw (c% "FILTER")) (Tok.isSym (c% "(")) ts = false := by
  cases o with
  | none =>
    cases h
    exact ⟨none, [], LexAs.nil, rfl, rfl, rfl⟩
  | some o =>
    obtain ⟨x, hx, hw⟩ : ∃ x, OverRead o x ∧ w = some x := by
      generalize hg : (false : Bool) = g at h
      cases h with
      | some h => exact ⟨_, h, rfl⟩
    subst hw
    obtain ⟨c, ts, h1, h2, h3⟩ := over_read hx
    exact ⟨some c, _, h1, h2, by rw [CWin_convOpt_some, h3]; rfl, by cases ts <;> rfl⟩

theorem filter_read {o : Option Str} {e : Option Expr} (h : OptText o e) :
    ∃ c ts, LexAs (filterText o) ts ∧ CE.convOpt c = .ok e ∧
      ∀ Y, next2 (Tok.isKw (c% "FILTER")) (Tok.isSym (c% "(")) Y = false → optFilter P (ts ++ Y) = some (c, Y) := by
  cases h with
  | none =>
    refine ⟨none, [], LexAs.nil, rfl, fun Y hY => ?_⟩
    rw [List.nil_append, optFilter, hY]
    rfl
  | @some s e h =>
    obtain ⟨c, hc, hv, hcl⟩ := text_is h
    refine ⟨some c, _, (lexAs_kw (t := kwT (c% "FILTER")) (w := c% "ILTER") (fun _ => rfl) rfl).app (lexAs_sym_open.app
      ((lexAs_word (t := kwT (c% "WHERE")) (w := c% "HERE") (fun _ => rfl) rfl).app ((lexAs_par hcl).app lexAs_sym_close))), ?_,
      fun Y _ => ?_⟩
    · show (c.conv >>= _) = _
      rw [hv]; rfl
    · have e : [kwT (c% "FILTER")] ++ ([symT (c% "(")] ++ ([kwT (c% "WHERE")] ++ (pt (toks s) [] ++ [symT (c% ")")]))) ++ Y =
          kwT (c% "FILTER") :: symT (c% "(") :: kwT (c% "WHERE") :: pt (toks s) (cl Y) := by
        simp [pt, cl]
      rw [e]
      show (P (.lv 0) (pt (toks s) (cl Y)) >>= _) = _
      exact bind_s (operand_pt (by omega) hc (Stop.free rfl) rfl) rfl

/-- The tokens of a call, and what they are read as. -/
theorem call_read {w : Tok} (hp : ∀ u, pPrimary P w (symT (c% "(") :: u) = pCall P [w] u)
    (hn : w.isKw (c% "NOT") = false) (hs : ∀ u, signNext (w :: symT (c% "(") :: u) = false)
    {x : CallParts} {es : List Expr} {os : List Ord} {fl : Option Expr} {win : Option Win} {ign : Bool}
    (h1 : Each Text x.args es) (h2 : Each SortRead x.order os) (h3 : OptText x.filter fl) (h4 : OverOpt x.over win ign) :
    ∃ cs co cf n cw ts, LexAs (parList x.args ++ (listClause (c% " ORDER BY ") (sortText x.order) x.order.isEmpty ++ (c% ")" ++
        (filterText x.filter ++ overText x.over)))) ts ∧
      P (.lv 0) (w :: symT (c% "(") :: ts) = some (.call [w] none cs co cf n cw, []) ∧
      CE.convs cs = .ok es ∧ CSort.convs co = .ok os ∧ CE.convOpt cf = .ok fl ∧ CWin.convOpt cw = .ok win ∧ (n == some true) = ign := by
  obtain ⟨cs, a1, a2, a3⟩ := each_read h1
  obtain ⟨co, ⟨to', o1, o2⟩, o3⟩ := part_sorts (after := wClose) (by decide +kernel) (by decide +kernel) (by decide +kernel)
    (by decide +kernel) (by decide +kernel) (by decide +kernel) h2
  obtain ⟨cf, tf, f1, f2, f3⟩ := filter_read h3
  obtain ⟨n, cw, tw, w1, w2, w3, w4, w5⟩ := overs_read h4
  refine ⟨cs, co, cf, n, cw, _, (lexAs_list a3).app (o1.app (lexAs_sym_close.app (f1.app w1))), ?_, a2, o3, f2, w3, w4⟩
  obtain ⟨o4, o5⟩ := o2 (symT (c% ")") :: (tf ++ tw)) Hd.first
  have e : ptList [] (x.args.map toks) ++ (to' ++ ([symT (c% ")")] ++ (tf ++ tw))) =
      ptList (to' ++ symT (c% ")") :: (tf ++ tw)) (x.args.map toks) := by
    rw [ptList_app]; rfl
  rw [e]
  generalize to' ++ symT (c% ")") :: (tf ++ tw) = Z at o4 o5
  have key : ∀ as : List (List Tok), Each Opd as cs → starArgs (ptList Z as) = none ∧
      optTok Tok.isQuant (ptList Z as) = (none, ptList Z as) ∧ callArgs P none (ptList Z as) = some (cs, Z) := by
    intro as h
    cases h with
    | nil =>
      rcases o5 with rfl | ⟨t, ht, r, rfl⟩
      · exact ⟨rfl, rfl, by cases o4⟩
      · simp only [wClose, List.mem_cons, List.not_mem_nil, or_false] at ht
        rcases ht with rfl | rfl
        · exact ⟨by cases r <;> rfl, rfl, rfl⟩
        · exact ⟨by cases r <;> rfl, rfl, rfl⟩
    | cons h hs =>
      rename_i a b tss' cs'
      refine ⟨by cases tss' <;> cases a <;> rfl, by cases tss' <;> rfl, ?_⟩
      rw [callArgs]
      refine ite_f (by cases tss' <;> rfl) ?_
      exact exprs_list (o5.stop (by decide +kernel) 0) (o5.nextSym _ (by decide +kernel)) (o5.symNone _ (by decide +kernel)) (by simp) (.cons h hs)
  obtain ⟨b1, b2, b3⟩ := key _ a1
  have h8 : P (.lv (0 + 8)) (w :: symT (c% "(") :: ptList Z (x.args.map toks)) = some (.call [w] none cs co cf n cw, []) := by
    rw [Nat.zero_add, P_lv8, hp]
    have : pCall P [w] (ptList Z (x.args.map toks)) = some (.call [w] none cs co cf n cw, []) := by
      rw [pCall, b1]
      dsimp only
      rw [b2]
      refine bind_s b3 (bind_s o4 (bind_s (a := tf ++ tw) rfl (bind_s (f3 _ w5) (bind_s w2 rfl))))
    rw [this]
    exact stop_post Stop.nil
  exact lowerTo 8 0 h8 (by omega) Stop.nil (fun _ _ => hn) (fun _ _ => hs _)

/-- A call over all rows. -/
theorem star_read {w : Tok} (hp : ∀ u, pPrimary P w (symT (c% "(") :: u) = pCall P [w] u)
    (hn : w.isKw (c% "NOT") = false) (hs : ∀ u, signNext (w :: symT (c% "(") :: u) = false)
    {cf : Option CE} {cw : Option CWin} {ts us : List Tok} (h1 : optFilter P (ts ++ us) = some (cf, us))
    (h2 : optOver P us = some (cw, [])) :
    P (.lv 0) (w :: symT (c% "(") :: symT (c% "*") :: symT (c% ")") :: (ts ++ us)) = some (.callStar [w] none cf cw, []) := by
  have h8 : P (.lv (0 + 8)) (w :: symT (c% "(") :: symT (c% "*") :: symT (c% ")") :: (ts ++ us)) = some (.callStar [w] none cf cw, []) := by
    rw [Nat.zero_add, P_lv8, hp]
    have : pCall P [w] (symT (c% "*") :: symT (c% ")") :: (ts ++ us)) = some (.callStar [w] none cf cw, []) := by
      rw [pCall]
      exact bind_s h1 (bind_s h2 rfl)
    rw [this]
    exact stop_post Stop.nil
  exact lowerTo 8 0 h8 (by omega) Stop.nil (fun _ _ => hn) (fun _ _ => hs _)

theorem toks_star (y : Str) : toks ('(' :: '*' :: ')' :: y) = symT (c% "(") :: symT (c% "*") :: symT (c% ")") :: toks y := by
  rw [toks_open, toks_step (t := symT (c% "*")) (r := ')' :: y) rfl, toks_close]
  rfl

end Treeno
