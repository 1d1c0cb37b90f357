import Verif.Lemmas.CompleteExpr
/-!
# Plain parse trees are read back: calls, windows, queries and relations
-/
set_option linter.unusedSimpArgs false
set_option linter.unusedVariables false
namespace Treeno
open Spec

/-! ## What follows -/

/-- Nothing, or one of these tokens first. -/
def Hd (L : List Tok) (rest : List Tok) : Prop := rest = [] ∨ ∃ t ∈ L, ∃ r, rest = t :: r

theorem Hd.nil {L : List Tok} : Hd L [] := .inl rfl
theorem Hd.cons {L : List Tok} {t : Tok} {r : List Tok} (h : L.contains t = true) : Hd L (t :: r) :=
  .inr ⟨t, by simpa using h, r, rfl⟩
theorem Hd.sub {L M : List Tok} {rest : List Tok} (h : Hd L rest) (hs : L.all M.contains = true) : Hd M rest := by
  rcases h with rfl | ⟨t, ht, r, rfl⟩
  · exact Hd.nil
  · exact .inr ⟨t, by simpa using List.all_eq_true.1 hs t ht, r, rfl⟩

theorem Hd.stop {L : List Tok} {rest : List Tok} (h : Hd L rest) (hL : L.all (fun t => t.frank.isNone) = true) (p : Nat) :
    Stop p rest := by
  rcases h with rfl | ⟨t, ht, r, rfl⟩
  · trivial
  · exact Stop.free (by simpa using List.all_eq_true.1 hL t ht)

theorem Hd.next {L : List Tok} {rest : List Tok} (h : Hd L rest) (p : Tok → Bool) (hL : L.all (fun t => !p t) = true) :
    nextIs p rest = false := by
  rcases h with rfl | ⟨t, ht, r, rfl⟩
  · rfl
  · simpa [nextIs] using List.all_eq_true.1 hL t ht

theorem Hd.next2 {L : List Tok} {rest : List Tok} (h : Hd L rest) (p g : Tok → Bool) (hL : L.all (fun t => !p t) = true) :
    next2 p g rest = false := by
  have := h.next p hL
  match rest, this with
  | [], _ => rfl
  | [t], _ => rfl
  | t :: u :: r, this => rw [nextIs] at this; rw [Treeno.next2, this]; rfl

theorem Hd.optTok {L : List Tok} {rest : List Tok} (h : Hd L rest) (p : Tok → Bool) (hL : L.all (fun t => !p t) = true) :
    optTok p rest = (none, rest) := by
  have := h.next p hL
  match rest, this with
  | [], _ => rfl
  | t :: r, this => rw [nextIs] at this; rw [Treeno.optTok, this]; rfl

theorem Hd.nextSym {L : List Tok} {rest : List Tok} (h : Hd L rest) (s : Str) (hL : L.all (fun t => !t.isSym s) = true) :
    nextSym s rest = false := by
  have := h.next _ hL
  match rest, this with
  | [], _ => rfl
  | t :: r, this => exact this

theorem Hd.star {L : List Tok} {rest : List Tok} (h : Hd L rest) (hL : L.all (fun t => !t.isSym (c% ".")) = true) :
    dotStar rest = false := dotStar_of (h.nextSym _ hL)

theorem Hd.nextKw {L : List Tok} {rest : List Tok} (h : Hd L rest) (s : Str) (hL : L.all (fun t => !t.isKw s) = true) :
    nextKw s rest = false := by
  have := h.next _ hL
  match rest, this with
  | [], _ => rfl
  | t :: r, this => exact this

theorem Hd.symNone {L : List Tok} {rest : List Tok} (h : Hd L rest) (s : Str) (hL : L.all (fun t => !t.isSym s) = true) :
    sym s rest = none := by
  have := h.next _ hL
  match rest, this with
  | [], _ => rfl
  | t :: r, this => rw [nextIs] at this; simp [sym, this]

theorem Hd.kwNone {L : List Tok} {rest : List Tok} (h : Hd L rest) (s : Str) (hL : L.all (fun t => !t.isKw s) = true) :
    kw s rest = none := by
  have := h.next _ hL
  match rest, this with
  | [], _ => rfl
  | t :: r, this => rw [nextIs] at this; simp [kw, this]

theorem Hd.end_ {L : List Tok} {rest : List Tok} (h : Hd L rest) (hL : L.all (fun t => t.frank.isNone && !t.isSym (c% ",")) = true) :
    End rest := by
  simp only [List.all_eq_true, Bool.and_eq_true] at hL
  exact ⟨h.stop (by simp only [List.all_eq_true]; exact fun t ht => (hL t ht).1) 0,
    h.symNone _ (by simp only [List.all_eq_true]; exact fun t ht => (hL t ht).2)⟩

theorem Hd.clause {L : List Tok} {rest pre : List Tok} {xs : List (List Tok)} {t : Tok} (h : Hd L rest)
    (ht : L.contains t = true) (hp : pre.head? = some t) : Hd L (clause pre xs ++ rest) := by
  unfold Spec.clause
  split
  · exact h
  · match pre, hp with
    | _ :: pre, hp => cases hp; exact Hd.cons ht

theorem Hd.optPart {L : List Tok} {rest pre : List Tok} {x : Option (List Tok)} {t : Tok} (h : Hd L rest)
    (ht : L.contains t = true) (hp : pre.head? = some t) : Hd L (optPart pre x ++ rest) := by
  cases x with
  | none => exact h
  | some x =>
    match pre, hp with
    | _ :: pre, hp => cases hp; exact Hd.cons ht

theorem Hd.optTok' {L : List Tok} {rest : List Tok} {o : Option Tok} {ks : List Str} (h : Hd L rest) (ho : Opt (KwIn ks) o)
    (hk : (ks.map kwT).all L.contains = true) : Hd L (o.toList ++ rest) := by
  cases o with
  | none => exact h
  | some t => exact Hd.cons (List.all_eq_true.1 hk t (ho t rfl))

theorem optTok_ok {p : Tok → Bool} {o : Option Tok} {X : List Tok} (h : ∀ t, o = some t → p t = true)
    (hX : optTok p X = (none, X)) : optTok p (o.toList ++ X) = (o, X) := by
  cases o with
  | none => exact hX
  | some t => simp [optTok, h t rfl]

theorem optKwIn {ks : List Str} {o : Option Tok} (h : Opt (KwIn ks) o) (hu : ∀ k ∈ ks, upper k = k) :
    ∀ t, o = some t → t.isKwOf ks = true := fun t ht => kwIn_isKwOf (h t ht) hu

/-! ## Sort items -/

def ySort : CSort → List Tok
  | .mk e o n => e.yield ++ (o.toList ++ optPart [kwT (c% "NULLS")] (n.map fun x => [x]))

theorem sort_yields : ∀ ss : List CSort, CSort.yields ss = ss.map ySort
  | [] => rfl
  | .mk e o n :: ss => by rw [CSort_yields_cons, sort_yields ss]; rfl

def afterSort : List Tok :=
  [symT (c% ")"), kwT (c% "RANGE"), kwT (c% "ROWS"), kwT (c% "GROUPS"), kwT (c% "OFFSET"), kwT (c% "LIMIT"), kwT (c% "FETCH")]

def SortGood (s : CSort) : Prop := ∀ rest, Hd (symT (c% ",") :: afterSort) rest → pSort P (ySort s ++ rest) = some (s, rest)

theorem optNullOrder_ok {n : Option Tok} (h : Opt (KwIn [c% "FIRST", c% "LAST"]) n) {rest : List Tok}
    (hr : kw (c% "NULLS") rest = none) :
    optNullOrder (optPart [kwT (c% "NULLS")] (n.map fun x => [x]) ++ rest) = some (n, rest) := by
  cases n with
  | none =>
    show optNullOrder rest = _
    rw [optNullOrder, hr]
  | some t =>
    show optNullOrder (kwT (c% "NULLS") :: t :: rest) = _
    rw [optNullOrder, kw_same _ _ (by decide +kernel)]
    simp only [tokIf, kwIn_isKwOf (h t rfl) (by decide +kernel), if_pos, Option.bind_eq_bind, Option.bind_some]

theorem sort_good {e : CE} {o n : Option Tok} (he : Good e) (ho : Opt (KwIn [c% "ASC", c% "DESC"]) o)
    (hn : Opt (KwIn [c% "FIRST", c% "LAST"]) n) : SortGood (.mk e o n) := by
  intro rest hr
  rw [ySort, List.append_assoc, List.append_assoc]
  have h1 : Hd (kwT (c% "NULLS") :: symT (c% ",") :: afterSort) (optPart [kwT (c% "NULLS")] (n.map fun x => [x]) ++ rest) :=
    Hd.optPart (hr.sub (by decide +kernel)) (by decide +kernel) rfl
  have h2 : Hd (kwT (c% "ASC") :: kwT (c% "DESC") :: kwT (c% "NULLS") :: symT (c% ",") :: afterSort)
      (o.toList ++ (optPart [kwT (c% "NULLS")] (n.map fun x => [x]) ++ rest)) :=
    Hd.optTok' (h1.sub (by decide +kernel)) ho (by decide +kernel)
  rw [pSort]
  refine bind_s (he.full 0 (by omega) _ (h2.stop (by decide +kernel) 0)) ?_
  have h3 := optTok_ok (p := Tok.isOrdering) (optKwIn ho (by decide +kernel)) (h1.optTok _ (by decide +kernel))
  simp only [h3]
  refine bind_s (optNullOrder_ok hn (hr.kwNone _ (by decide +kernel))) rfl

theorem sorts_ok {ob : List CSort} (hne : ob ≠ []) (h : ∀ s ∈ ob, SortGood s) {rest : List Tok} (hr : Hd afterSort rest) :
    P .sorts (commas (CSort.yields ob) ++ rest) = some (ob, rest) := by
  rw [sort_yields]
  exact sep_ok P_sorts ySort (Hd (symT (c% ",") :: afterSort)) (fun ts => Hd.cons (by decide +kernel)) ob hne
    (fun s hs => h s hs) rest (hr.sub (by decide +kernel)) (hr.symNone _ (by decide +kernel))

theorem optOrder_ok {ob : List CSort} (h : ∀ s ∈ ob, SortGood s) {rest : List Tok} (hr : Hd afterSort rest) :
    optOrder P (orderPart (CSort.yields ob) ++ rest) = some (ob, rest) := by
  cases ob with
  | nil =>
    rw [CSort_yields_nil]
    show optOrder P rest = _
    rw [optOrder, hr.kwNone _ (by decide +kernel)]
  | cons s ss =>
    have hy : orderPart (CSort.yields (s :: ss)) ++ rest =
        kwT (c% "ORDER") :: kwT (c% "BY") :: (commas (CSort.yields (s :: ss)) ++ rest) := by
      rw [sort_yields]; rfl
    rw [hy, optOrder, kw_same _ _ (by decide +kernel)]
    show (kw (c% "BY") _ >>= _) = _
    rw [kw_same _ _ (by decide +kernel)]
    exact sorts_ok (by simp) h hr

/-! ## Windows -/

theorem optPartition_ok {ps : List CE} (h : ∀ e ∈ ps, Good e) {rest : List Tok} (hr : End rest)
    (hr2 : kw (c% "PARTITION") rest = none) :
    optPartition P (clause [kwT (c% "PARTITION"), kwT (c% "BY")] (CE.yields ps) ++ rest) = some (ps, rest) := by
  cases ps with
  | nil =>
    rw [CE_yields_nil]
    show optPartition P rest = _
    rw [optPartition, hr2]
  | cons s ss =>
    have hy : clause [kwT (c% "PARTITION"), kwT (c% "BY")] (CE.yields (s :: ss)) ++ rest =
        kwT (c% "PARTITION") :: kwT (c% "BY") :: (commas (CE.yields (s :: ss)) ++ rest) := by
      rw [CE_yields_cons]; rfl
    rw [hy, optPartition, kw_same _ _ (by decide +kernel)]
    show (kw (c% "BY") _ >>= _) = _
    rw [kw_same _ _ (by decide +kernel)]
    exact exprs_ok (by simp) h hr

def BoundGood (b : CBound) : Prop := ∀ rest, pBound P (b.yield ++ rest) = some (b, rest)

theorem bound_unbounded {t : Tok} (h : KwIn [c% "PRECEDING", c% "FOLLOWING"] t) : BoundGood (.unbounded t) := by
  intro rest
  have ht : t.isDirection = true := kwIn_isKwOf h (by decide +kernel)
  rw [CBound_yield_unbounded]
  refine ite_t ?_ ?_
  · show (Tok.isKw (c% "UNBOUNDED") (kwT (c% "UNBOUNDED")) && t.isDirection) = true
    rw [ht]; rfl
  · simp [tokIf, ht]

theorem bound_current : BoundGood .current := by
  intro rest
  rw [CBound_yield_current]
  exact ite_f rfl (ite_t rfl rfl)

theorem bound_bounded {e : CE} {t : Tok} (hp : e.Plain) (he : Good e) (h : KwIn [c% "PRECEDING", c% "FOLLOWING"] t) :
    BoundGood (.bounded e t) := by
  intro rest
  have ht : t.isDirection = true := kwIn_isKwOf h (by decide +kernel)
  have hf : t.frank = none := frank_kwOf ht (by decide +kernel)
  have hd : dotStar (t :: rest) = false := by
    obtain ⟨k, _, rfl⟩ := KwIn.of h
    rfl
  have hh := (CE.start e hp (t :: rest) hd).heads
  rw [CBound_yield_bounded, List.append_assoc]
  refine ite_f (hh.not2 _ _ (by decide +kernel)) (ite_f (hh.not2 _ _ (by decide +kernel)) ?_)
  refine bind_s (he.full 0 (by omega) _ (Stop.free hf)) ?_
  refine bind_s (a := (t, rest)) ?_ rfl
  simp [tokIf, ht]

theorem bound_notBetween {b : CBound} (h : b.Plain) (rest : List Tok) : kw (c% "BETWEEN") (b.yield ++ rest) = none := by
  cases b with
  | unbounded t => rw [CBound_yield_unbounded]; rfl
  | current => rw [CBound_yield_current]; rfl
  | bounded e t =>
    rw [CBound_Plain_bounded] at h
    have hd : dotStar (t :: rest) = false := by
      obtain ⟨k, _, rfl⟩ := KwIn.of h.2
      rfl
    rw [CBound_yield_bounded, List.append_assoc]
    exact (CE.start e h.1 (t :: rest) hd).heads.kwNone _ (by decide +kernel)

def FrameGood (f : CFrame) : Prop := ∀ rest, optFrame P (f.yield ++ symT (c% ")") :: rest) = some (f, symT (c% ")") :: rest)

theorem frame_none : FrameGood .none := by
  intro rest
  rw [CFrame_yield_none]
  rfl

theorem frame_from {t : Tok} {b : CBound} (h : KwIn [c% "RANGE", c% "ROWS", c% "GROUPS"] t) (hp : b.Plain)
    (hb : BoundGood b) : FrameGood (.from_ t b) := by
  intro rest
  have ht : t.isFrame = true := kwIn_isKwOf h (by decide +kernel)
  rw [CFrame_yield_from_, List.cons_append]
  refine ite_t ht ?_
  refine bind_s (a := (t, _)) (by simp only [tokIf, ht, if_pos]; rfl) ?_
  simp only [bound_notBetween hp]
  exact bind_s (hb _) rfl

theorem frame_between {t : Tok} {a b : CBound} (h : KwIn [c% "RANGE", c% "ROWS", c% "GROUPS"] t)
    (ha : BoundGood a) (hb : BoundGood b) : FrameGood (.between t a b) := by
  intro rest
  have ht : t.isFrame = true := kwIn_isKwOf h (by decide +kernel)
  rw [CFrame_yield_between, List.cons_append, List.cons_append, List.append_assoc]
  refine ite_t ht ?_
  refine bind_s (a := (t, _)) (by simp only [tokIf, ht, if_pos]; rfl) ?_
  simp only [kw_same (c% "BETWEEN") _ (by decide +kernel)]
  refine bind_s (ha _) ?_
  refine bind_s (kw_same (c% "AND") _ (by decide +kernel)) ?_
  exact bind_s (hb _) rfl

def frameHd : List Tok := [symT (c% ")"), kwT (c% "RANGE"), kwT (c% "ROWS"), kwT (c% "GROUPS")]

theorem frame_hd {f : CFrame} (h : f.Plain) (rest : List Tok) : Hd frameHd (f.yield ++ symT (c% ")") :: rest) := by
  cases f with
  | none => rw [CFrame_yield_none]; exact Hd.cons (by decide +kernel)
  | from_ t b =>
    rw [CFrame_Plain_from_] at h
    obtain ⟨k, hk, rfl⟩ := KwIn.of h.1
    rw [CFrame_yield_from_]
    exact .inr ⟨_, by simp at hk; rcases hk with rfl | rfl | rfl <;> simp [frameHd], _, rfl⟩
  | between t a b =>
    rw [CFrame_Plain_between] at h
    obtain ⟨k, hk, rfl⟩ := KwIn.of h.1
    rw [CFrame_yield_between]
    exact .inr ⟨_, by simp at hk; rcases hk with rfl | rfl | rfl <;> simp [frameHd], _, rfl⟩

theorem word_winName {t : Tok} (h : Word t) : t.isWinName = true := by
  simp only [Tok.isWinName, word_isIdent h, Tok.isFrame, word_kwOf h [c% "RANGE", c% "ROWS", c% "GROUPS"] (by decide +kernel),
    word_kw h (c% "PARTITION") (by decide +kernel)]
  rfl

theorem win_ok {p : Option Tok} {ps : List CE} {ob : List CSort} {f : CFrame} (hp : Opt Word p) (hps : ∀ e ∈ ps, Good e)
    (hob : ∀ s ∈ ob, SortGood s) (hf : f.Plain) (hfg : FrameGood f) (rest : List Tok) :
    P .win (p.toList ++ (clause [kwT (c% "PARTITION"), kwT (c% "BY")] (CE.yields ps) ++ (orderPart (CSort.yields ob) ++
      (f.yield ++ symT (c% ")") :: rest)))) = some (.spec p ps ob f, rest) := by
  have h1 := frame_hd hf rest
  have h2 : Hd (kwT (c% "ORDER") :: frameHd) (orderPart (CSort.yields ob) ++ (f.yield ++ symT (c% ")") :: rest)) :=
    Hd.clause (h1.sub (by decide +kernel)) (by decide +kernel) rfl
  have h3 : Hd (kwT (c% "PARTITION") :: kwT (c% "ORDER") :: frameHd) (clause [kwT (c% "PARTITION"), kwT (c% "BY")] (CE.yields ps) ++
      (orderPart (CSort.yields ob) ++ (f.yield ++ symT (c% ")") :: rest))) :=
    Hd.clause (h2.sub (by decide +kernel)) (by decide +kernel) rfl
  have h4 := optTok_ok (p := Tok.isWinName) (o := p) (fun t ht => word_winName (hp t ht)) (h3.optTok _ (by decide +kernel))
  rw [P_win, pWin]
  simp only [h4]
  refine bind_s (optPartition_ok hps (h2.end_ (by decide +kernel)) (h2.kwNone _ (by decide +kernel))) ?_
  refine bind_s (optOrder_ok hob (h1.sub (by decide +kernel))) ?_
  refine bind_s (hfg rest) ?_
  exact bind_s (sym_same _ _) rfl

def WinGood (w : CWin) : Prop := ∀ rest, optOver P (kwT (c% "OVER") :: (w.yield ++ rest)) = some (some w, rest)

theorem win_ref {t : Tok} (h : Word t) : WinGood (.ref t) := by
  intro rest
  rw [CWin_yield_ref]
  have h1 := word_isIdent h
  refine ite_f ?_ (ite_t ?_ ?_)
  · show (Tok.isKw (c% "OVER") (kwT (c% "OVER")) && t.isSym (c% "(")) = false
    rw [word_sym h]; rfl
  · show (Tok.isKw (c% "OVER") (kwT (c% "OVER")) && t.isIdent) = true
    rw [h1]; rfl
  · refine bind_s (a := (t, rest)) ?_ rfl
    simp [pIdent, h1]

theorem win_spec {p : Option Tok} {ps : List CE} {ob : List CSort} {f : CFrame} (hp : Opt Word p) (hps : ∀ e ∈ ps, Good e)
    (hob : ∀ s ∈ ob, SortGood s) (hf : f.Plain) (hfg : FrameGood f) : WinGood (.spec p ps ob f) := by
  intro rest
  rw [CWin_yield_spec]
  refine ite_t rfl ?_
  refine bind_s (a := (.spec p ps ob f, rest)) ?_ rfl
  rw [← win_ok hp hps hob hf hfg rest]
  simp [inParens]

/-! ## Calls -/

theorem optOver_ok {w : Option CWin} (h : ∀ x, w = some x → WinGood x) {rest : List Tok} (hr : Stop 9 rest) :
    optOver P (optPart [kwT (c% "OVER")] (CWin.yieldOpt w) ++ rest) = some (w, rest) := by
  cases w with
  | none =>
    rw [CWin_yieldOpt_none]
    exact ite_f (hr.not2Kw (k := 9) (by decide +kernel) (by omega) _) (ite_f (hr.not2Kw (k := 9) (by decide +kernel) (by omega) _) rfl)
  | some w => rw [CWin_yieldOpt_some]; exact h w rfl rest

theorem optFilter_ok {f : Option CE} (h : ∀ x, f = some x → Good x) {rest : List Tok} (hr : next2 (Tok.isKw (c% "FILTER")) (Tok.isSym (c% "(")) rest = false) :
    optFilter P (optIn [kwT (c% "FILTER"), symT (c% "("), kwT (c% "WHERE")] [symT (c% ")")] (CE.yieldOpt f) ++ rest) = some (f, rest) := by
  cases f with
  | none => rw [CE_yieldOpt_none]; exact ite_f hr rfl
  | some f =>
    rw [CE_yieldOpt_some]
    show optFilter P (kwT (c% "FILTER") :: symT (c% "(") :: kwT (c% "WHERE") :: (f.yield ++ [symT (c% ")")] ++ rest)) = _
    rw [List.append_assoc]
    refine ite_t rfl ?_
    refine bind_s (kw_same (c% "WHERE") _ (by decide +kernel)) ?_
    refine bind_s ((h f rfl).full 0 (by omega) _ (Stop.free frank_rpar)) ?_
    exact bind_s (sym_same _ _) rfl

theorem over_hd {w : Option CWin} {rest : List Tok} (hr : Stop 9 rest) (k : Str) (hk : kwRank k = some 9) (ho : k ≠ c% "OVER")
    (g : Tok → Bool) : next2 (Tok.isKw k) g (optPart [kwT (c% "OVER")] (CWin.yieldOpt w) ++ rest) = false := by
  cases w with
  | none => rw [CWin_yieldOpt_none]; exact hr.not2Kw hk (by omega) g
  | some w =>
    rw [CWin_yieldOpt_some]
    have : Tok.isKw k (kwT (c% "OVER")) = false := by
      rw [Bool.eq_false_iff]; intro h
      exact ho (isKw_eq h).2.symm
    show next2 (Tok.isKw k) g (kwT (c% "OVER") :: (w.yield ++ rest)) = false
    cases w.yield ++ rest with
    | nil => rfl
    | cons t ts => simp only [next2, this]; rfl

theorem optNullsOver_ok {i : Option Bool} {w : Option CWin} (hi : i.isSome → w.isSome) (h : ∀ x, w = some x → WinGood x)
    {rest : List Tok} (hr : Stop 9 rest) :
    optNullsOver P (nullsPart i ++ (optPart [kwT (c% "OVER")] (CWin.yieldOpt w) ++ rest)) = some ((i, w), rest) := by
  have ho := optOver_ok h hr
  cases i with
  | none =>
    have h1 : optNulls (optPart [kwT (c% "OVER")] (CWin.yieldOpt w) ++ rest) = (none, optPart [kwT (c% "OVER")] (CWin.yieldOpt w) ++ rest) := by
      rw [optNulls, over_hd hr (c% "IGNORE") (by decide +kernel) (by decide +kernel),
        over_hd hr (c% "RESPECT") (by decide +kernel) (by decide +kernel)]
      rfl
    show optNullsOver P (optPart [kwT (c% "OVER")] (CWin.yieldOpt w) ++ rest) = _
    rw [optNullsOver, h1]
    exact bind_s ho rfl
  | some b =>
    have hs := hi rfl
    have h1 : ∀ ts, optNulls (nullsPart (some b) ++ ts) = (some b, ts) := by
      intro ts; cases b <;> rfl
    rw [optNullsOver, h1]
    refine bind_s ho ?_
    simp only [hs, if_pos]

theorem nulls_filter {i : Option Bool} {w : Option CWin} {rest : List Tok} (hr : Stop 9 rest) :
    next2 (Tok.isKw (c% "FILTER")) (Tok.isSym (c% "(")) (nullsPart i ++ (optPart [kwT (c% "OVER")] (CWin.yieldOpt w) ++ rest)) = false := by
  cases i with
  | none => exact over_hd hr _ (by decide +kernel) (by decide +kernel) _
  | some b => cases b <;> rfl

theorem name_call {n : List Tok} (hne : n ≠ []) (h : Words n) (ts : List Tok) :
    P (.lv 8) (qname n ++ symT (c% "(") :: ts) = (pCall P n ts).bind fun e => P (.loop 8 e.1) e.2 := by
  have hq := pQName_ok (rest := symT (c% "(") :: ts) hne h (notName_of rfl)
  match n, hne with
  | t :: ns, _ =>
    have hw := h t (by simp)
    obtain ⟨tail, ht, hstr, harr⟩ : ∃ tail, qname (t :: ns) = t :: tail ∧ nextStr (tail ++ symT (c% "(") :: ts) = false ∧
        nextSym (c% "->") (tail ++ symT (c% "(") :: ts) = false := by
      cases ns with
      | nil => exact ⟨[], rfl, rfl, rfl⟩
      | cons u ns => exact ⟨_, rfl, rfl, rfl⟩
    rw [ht, List.cons_append] at hq
    rw [ht, List.cons_append, P_lv8, prim_word hw, pName, hstr, harr]
    simp only [Bool.false_eq_true, if_false, hq, Option.bind_eq_bind, Option.bind_some]
    rfl

theorem good_callStar {n : List Tok} {l : Option Tok} {f : Option CE} {w : Option CWin} (hc : (CE.callStar n l f w).Plain)
    (hf : ∀ x, f = some x → Good x) (hw : ∀ x, w = some x → WinGood x) : Good (.callStar n l f w) := by
  have h := hc
  rw [CE_Plain_callStar] at h
  obtain ⟨hne, ht, hl, h3, h4⟩ := h
  refine Good.ofPrim hc rfl fun rest hs _ => ?_
  have hy : (inParens (optIn [] [symT (c% ".")] (l.map fun x => [x]) ++ [symT (c% "*")]) ++
      (optIn [kwT (c% "FILTER"), symT (c% "("), kwT (c% "WHERE")] [symT (c% ")")] (CE.yieldOpt f) ++
        optPart [kwT (c% "OVER")] (CWin.yieldOpt w))) ++ rest = symT (c% "(") :: (optIn [] [symT (c% ".")] (l.map fun x => [x]) ++
      symT (c% "*") :: symT (c% ")") :: (optIn [kwT (c% "FILTER"), symT (c% "("), kwT (c% "WHERE")] [symT (c% ")")] (CE.yieldOpt f) ++
        (optPart [kwT (c% "OVER")] (CWin.yieldOpt w) ++ rest))) := by simp [inParens]
  rw [CE_yield_callStar, List.append_assoc, hy, name_call hne ht]
  refine bind_s (a := (.callStar n l f w, rest)) ?_ rfl
  rw [pCall]
  have hst : ∀ ts, starArgs (optIn [] [symT (c% ".")] (l.map fun x => [x]) ++ symT (c% "*") :: symT (c% ")") :: ts) = some (l, ts) := by
    intro ts
    cases l with
    | none => rfl
    | some x =>
      have := hl x rfl
      show starArgs (x :: symT (c% ".") :: symT (c% "*") :: symT (c% ")") :: ts) = _
      rw [starArgs, word_isIdent this, word_sym this]
      rfl
  rw [hst]
  refine bind_s (optFilter_ok hf (over_hd hs _ (by decide +kernel) (by decide +kernel) _)) ?_
  exact bind_s (optOver_ok hw hs) rfl

theorem good_call {n : List Tok} {q : Option Tok} {args : List CE} {ob : List CSort} {f : Option CE} {ign : Option Bool}
    {w : Option CWin} (hc : (CE.call n q args ob f ign w).Plain) (ha : ∀ e ∈ args, Good e) (hob : ∀ s ∈ ob, SortGood s)
    (hf : ∀ x, f = some x → Good x) (hw : ∀ x, w = some x → WinGood x) : Good (.call n q args ob f ign w) := by
  have h := hc
  rw [CE_Plain_call] at h
  obtain ⟨hne, ht, hq, hqa, hpa, hps, hpf, hiw, hpw⟩ := h
  refine Good.ofPrim hc rfl fun rest hs _ => ?_
  rw [CE_yield_call, List.append_assoc]
  generalize hF : optIn [kwT (c% "FILTER"), symT (c% "("), kwT (c% "WHERE")] [symT (c% ")")] (CE.yieldOpt f) = F
  generalize hW : optPart [kwT (c% "OVER")] (CWin.yieldOpt w) = W
  generalize hO : orderPart (CSort.yields ob) = O
  have hy : (inParens (q.toList ++ commas (CE.yields args) ++ O) ++ (F ++ (nullsPart ign ++ W))) ++ rest =
      symT (c% "(") :: (q.toList ++ (commas (CE.yields args) ++ (O ++ symT (c% ")") :: (F ++ (nullsPart ign ++ (W ++ rest)))))) := by
    simp [inParens]
  rw [hy, name_call hne ht]
  refine bind_s (a := (.call n q args ob f ign w, rest)) ?_ rfl
  rw [pCall]
  generalize hR : F ++ (nullsPart ign ++ (W ++ rest)) = R
  have hhd : Hd [kwT (c% "ORDER"), symT (c% ")")] (O ++ symT (c% ")") :: R) := by
    rw [← hO]
    exact Hd.clause (Hd.cons (by decide +kernel)) (by decide +kernel) rfl
  have hdot := hhd.star (by decide +kernel)
  -- the arguments
  have hstar : starArgs (q.toList ++ (commas (CE.yields args) ++ (O ++ symT (c% ")") :: R))) = none := by
    cases q with
    | none =>
      cases args with
      | nil =>
        show starArgs (O ++ symT (c% ")") :: R) = none
        rcases hhd with he | ⟨u, hu, r, he⟩
        · simp at he
        · rw [he]
          refine starArgs_none ?_ (.inl ?_)
          · simp only [List.mem_cons, List.not_mem_nil, or_false] at hu; rcases hu with rfl | rfl <;> rfl
          · simp only [List.mem_cons, List.not_mem_nil, or_false] at hu; rcases hu with rfl | rfl <;> decide +kernel
      | cons a as => exact (CE.starts (a :: as) (by simp) hpa _ hdot).2
    | some x =>
      have hx := hq x rfl
      have hne := hqa rfl
      have hh := (CE.starts args hne hpa _ hdot).1
      refine starArgs_none ?_ (.inr ?_)
      · obtain ⟨k, _, rfl⟩ := KwIn.of hx; rfl
      · exact dotStar_of hh.notDot
  rw [hstar]
  have hqt : optTok Tok.isQuant (q.toList ++ (commas (CE.yields args) ++ (O ++ symT (c% ")") :: R))) =
      (q, commas (CE.yields args) ++ (O ++ symT (c% ")") :: R)) := by
    refine optTok_ok (optKwIn hq (by decide +kernel)) ?_
    cases args with
    | nil => exact hhd.optTok _ (by decide +kernel)
    | cons a as => exact (CE.starts (a :: as) (by simp) hpa _ hdot).1.optQuant
  simp only [hqt]
  have hca : callArgs P q (commas (CE.yields args) ++ (O ++ symT (c% ")") :: R)) = some (args, O ++ symT (c% ")") :: R) := by
    cases args with
    | nil =>
      have hqn : q = none := by
        cases q with
        | none => rfl
        | some x => exact absurd rfl (hqa rfl)
      subst hqn
      refine ite_t ?_ rfl
      show (true && (nextSym _ (O ++ symT (c% ")") :: R) || nextKw _ (O ++ symT (c% ")") :: R))) = true
      rcases hhd with he | ⟨u, hu, r, he⟩
      · simp at he
      · rw [he]
        simp only [List.mem_cons, List.not_mem_nil, or_false] at hu; rcases hu with rfl | rfl <;> rfl
    | cons a as =>
      have hh := (CE.starts (a :: as) (by simp) hpa _ hdot).1
      refine ite_f ?_ (exprs_ok (by simp) ha (hhd.end_ (by decide +kernel)))
      rw [hh.notRpar', hh.notKw _ (by decide +kernel)]
      simp
  refine bind_s hca ?_
  rw [← hO]
  refine bind_s (optOrder_ok hob (Hd.cons (by decide +kernel))) ?_
  refine bind_s (sym_same _ _) ?_
  rw [← hR, ← hF, ← hW]
  refine bind_s (optFilter_ok hf (nulls_filter hs)) ?_
  exact bind_s (optNullsOver_ok hiw hw hs) rfl

/-! ## LISTAGG and CASE -/

theorem optSep_ok {s : Option CStr} (h : ∀ x, s = some x → PlainStr x) {rest : List Tok} (hr : sym (c% ",") rest = none)
    (hu : nextKw (c% "UESCAPE") rest = false) :
    optSep (optPart [symT (c% ",")] (s.map CStr.yield) ++ rest) = some (s, rest) := by
  cases s with
  | none =>
    show optSep rest = _
    rw [optSep, hr]
  | some x =>
    show optSep (symT (c% ",") :: (x.yield ++ rest)) = _
    rw [optSep, sym_same]
    exact bind_s (pString_ok (h x rfl) hu) rfl

theorem optOverflow_ok {s : Option COverflow} (h : ∀ x, s = some x → PlainOverflow x) {rest : List Tok} (hr : kw (c% "ON") rest = none) :
    optOverflow (optPart [] (s.map COverflow.yield) ++ rest) = some (s, rest) := by
  cases s with
  | none =>
    show optOverflow rest = _
    rw [optOverflow, hr]
  | some x =>
    cases x with
    | error => rfl
    | truncate f c =>
      have hf : ∀ s, f = some s → PlainStr s := h _ rfl
      have hy : optPart [] ((some (COverflow.truncate f c)).map COverflow.yield) ++ rest =
          kwT (c% "ON") :: kwT (c% "OVERFLOW") :: kwT (c% "TRUNCATE") ::
            (optPart [] (f.map CStr.yield) ++ kwT (if c then c% "WITH" else c% "WITHOUT") :: kwT (c% "COUNT") :: rest) := by
        simp [optPart, COverflow.yield]
      rw [hy, optOverflow, kw_same _ _ (by decide +kernel)]
      refine bind_s (kw_same _ _ (by decide +kernel)) ?_
      show (kw (c% "TRUNCATE") _ >>= _) = _
      refine bind_s (kw_same _ _ (by decide +kernel)) ?_
      refine bind_s (a := (f, kwT (if c then c% "WITH" else c% "WITHOUT") :: kwT (c% "COUNT") :: rest)) ?_ ?_
      · cases f with
        | none => rfl
        | some s =>
          show optString (s.yield ++ _) = _
          rw [optString, str_next (hf s rfl), if_pos rfl, pString_ok (hf s rfl) (by cases c <;> rfl)]
          rfl
      · cases c <;> rfl

theorem optQuant_ok {q : Option Tok} (hq : Opt (KwIn [c% "DISTINCT", c% "ALL"]) q) {ts : List Tok} (h : optTok Tok.isQuant ts = (none, ts)) :
    optTok Tok.isQuant (q.toList ++ ts) = (q, ts) := optTok_ok (optKwIn hq (by decide +kernel)) h

theorem good_listagg {q : Option Tok} {e : CE} {sep : Option CStr} {ov : Option COverflow} {ob : List CSort}
    (hc : (CE.listagg q e sep ov ob).Plain) (he : Good e) (hob : ∀ s ∈ ob, SortGood s) : Good (.listagg q e sep ov ob) := by
  have h := hc
  rw [CE_Plain_listagg] at h
  obtain ⟨hq, hpe, hsep, hov, hne, hps⟩ := h
  refine Good.ofPrimary hc rfl (CE_yield_listagg q e sep ov ob) fun rest hs => ?_
  generalize hS : optPart [symT (c% ",")] (sep.map CStr.yield) = S
  generalize hV : optPart [] (ov.map COverflow.yield) = V
  have hO : orderPart (CSort.yields ob) = kwT (c% "ORDER") :: kwT (c% "BY") :: commas (CSort.yields ob) := by
    cases ob with
    | nil => exact absurd rfl hne
    | cons s ss => rw [sort_yields]; rfl
  have hy : (inParens (q.toList ++ e.yield ++ S ++ V) ++ (kwT (c% "WITHIN") :: kwT (c% "GROUP") :: inParens (orderPart (CSort.yields ob)))) ++ rest =
      symT (c% "(") :: (q.toList ++ (e.yield ++ (S ++ (V ++ symT (c% ")") :: kwT (c% "WITHIN") :: kwT (c% "GROUP") :: symT (c% "(") ::
        kwT (c% "ORDER") :: kwT (c% "BY") :: (commas (CSort.yields ob) ++ symT (c% ")") :: rest))))) := by
    rw [hO]
    simp [inParens]
  refine (congrArg (pPrimary P (kwT (c% "LISTAGG"))) hy).trans ?_
  show pListAgg P _ = _
  rw [pListAgg]
  refine bind_s (sym_same _ _) ?_
  generalize hR : (symT (c% ")") :: kwT (c% "WITHIN") :: kwT (c% "GROUP") :: symT (c% "(") ::
        kwT (c% "ORDER") :: kwT (c% "BY") :: (commas (CSort.yields ob) ++ symT (c% ")") :: rest)) = R
  have h1 : Hd [symT (c% ")"), kwT (c% "ON")] (V ++ R) := by
    rw [← hV, ← hR]
    cases ov with
    | none => exact Hd.cons (by decide +kernel)
    | some o => cases o <;> exact Hd.cons (by decide +kernel)
  have h2 : Hd [symT (c% ","), symT (c% ")"), kwT (c% "ON")] (S ++ (V ++ R)) := by
    rw [← hS]
    exact Hd.optPart (h1.sub (by decide +kernel)) (by decide +kernel) rfl
  have hh := (CE.start e hpe _ (h2.star (by decide +kernel))).heads
  simp only [optQuant_ok hq hh.optQuant]
  refine bind_s (he.full 0 (by omega) _ (h2.stop (by decide +kernel) 0)) ?_
  rw [← hS]
  refine bind_s (optSep_ok hsep (h1.symNone _ (by decide +kernel)) (h1.nextKw _ (by decide +kernel))) ?_
  rw [← hV]
  refine bind_s (optOverflow_ok hov (by rw [← hR]; rfl)) ?_
  rw [← hR]
  refine bind_s (sym_same _ _) ?_
  refine bind_s (kw_same _ _ (by decide +kernel)) ?_
  refine bind_s (kw_same _ _ (by decide +kernel)) ?_
  refine bind_s (sym_same _ _) ?_
  refine bind_s (kw_same _ _ (by decide +kernel)) ?_
  refine bind_s (kw_same _ _ (by decide +kernel)) ?_
  refine bind_s (sorts_ok hne hob (Hd.cons (by decide +kernel))) ?_
  exact bind_s (sym_same _ _) rfl

theorem optExpr_ok {k : Str} (hk : upper k = k) {e : Option CE} (h : ∀ x, e = some x → Good x) {rest : List Tok} (hs : Stop 0 rest)
    (hr : kw k rest = none) : optExpr P k (optPart [kwT k] (CE.yieldOpt e) ++ rest) = some (e, rest) := by
  cases e with
  | none =>
    rw [CE_yieldOpt_none]
    show optExpr P k rest = _
    rw [optExpr, hr]
  | some e =>
    rw [CE_yieldOpt_some]
    show optExpr P k (kwT k :: (e.yield ++ rest)) = _
    rw [optExpr, kw_same _ _ hk]
    exact bind_s ((h e rfl).full 0 (by omega) _ hs) rfl

def WhenGood : CWhen → Prop
  | .mk c v => Good c ∧ Good v

def caseEnd : List Tok := [kwT (c% "ELSE"), kwT (c% "END")]

theorem whens_ok : ∀ {ws : List CWhen}, ws ≠ [] → (∀ w ∈ ws, WhenGood w) → ∀ {rest : List Tok}, Hd caseEnd rest →
    P .whens ((CWhen.yields ws).flatten ++ rest) = some (ws, rest)
  | [], h, _, _, _ => absurd rfl h
  | .mk c v :: ws, _, h, rest, hr => by
    obtain ⟨hc, hv⟩ := h (.mk c v) (by simp)
    rw [CWhen_yields_cons, P_whens, pWhens]
    have hy : ((kwT (c% "WHEN") :: (c.yield ++ kwT (c% "THEN") :: v.yield)) :: CWhen.yields ws).flatten ++ rest =
      kwT (c% "WHEN") :: (c.yield ++ kwT (c% "THEN") :: (v.yield ++ ((CWhen.yields ws).flatten ++ rest))) := by simp
    rw [hy]
    have hn : Hd (kwT (c% "WHEN") :: caseEnd) ((CWhen.yields ws).flatten ++ rest) := by
      match ws with
      | [] => exact hr.sub (by decide +kernel)
      | .mk c' v' :: ws => rw [CWhen_yields_cons]; exact Hd.cons (by decide +kernel)
    have hw : pWhen P (kwT (c% "WHEN") :: (c.yield ++ kwT (c% "THEN") :: (v.yield ++ ((CWhen.yields ws).flatten ++ rest)))) =
        some (.mk c v, (CWhen.yields ws).flatten ++ rest) := by
      rw [pWhen]
      refine bind_s (kw_same _ _ (by decide +kernel)) ?_
      refine bind_s (hc.full 0 (by omega) _ (Stop.free (by decide +kernel))) ?_
      refine bind_s (kw_same _ _ (by decide +kernel)) ?_
      exact bind_s (hv.full 0 (by omega) _ (hn.stop (by decide +kernel) 0)) rfl
    refine bind_s hw ?_
    match ws, h with
    | [], _ =>
      rw [CWhen_yields_nil]
      exact ite_f (hr.nextKw _ (by decide +kernel)) rfl
    | w :: ws, h =>
      have ih := whens_ok (ws := w :: ws) (by simp) (fun x hx => h x (by simp at hx ⊢; exact .inr hx)) hr
      refine ite_t ?_ (bind_s ih rfl)
      cases w
      rw [CWhen_yields_cons]; rfl

theorem good_case {v : Option CE} {ws : List CWhen} {e : Option CE} (hc : (CE.case v ws e).Plain) (hv : ∀ x, v = some x → Good x)
    (hw : ∀ w ∈ ws, WhenGood w) (he : ∀ x, e = some x → Good x) : Good (.case v ws e) := by
  have h := hc
  rw [CE_Plain_case] at h
  obtain ⟨hpv, hne, hpw, hpe⟩ := h
  refine Good.ofPrimary hc rfl (CE_yield_case v ws e) fun rest hs => ?_
  show pCase P _ = _
  simp only [List.append_assoc, List.cons_append, List.nil_append]
  have h1 : Hd caseEnd (optPart [kwT (c% "ELSE")] (CE.yieldOpt e) ++ kwT (c% "END") :: rest) :=
    Hd.optPart (Hd.cons (by decide +kernel)) (by decide +kernel) rfl
  have h2 : ∃ r, (CWhen.yields ws).flatten ++ (optPart [kwT (c% "ELSE")] (CE.yieldOpt e) ++ kwT (c% "END") :: rest) = kwT (c% "WHEN") :: r := by
    match ws, hne with
    | .mk c v :: ws, _ => rw [CWhen_yields_cons]; exact ⟨_, rfl⟩
  have hco : caseOperand P (optPart [] (CE.yieldOpt v) ++ ((CWhen.yields ws).flatten ++ (optPart [kwT (c% "ELSE")] (CE.yieldOpt e) ++ kwT (c% "END") :: rest)))
      = some (v, (CWhen.yields ws).flatten ++ (optPart [kwT (c% "ELSE")] (CE.yieldOpt e) ++ kwT (c% "END") :: rest)) := by
    obtain ⟨r, hr⟩ := h2
    rw [hr]
    cases v with
    | none => rw [CE_yieldOpt_none]; exact ite_t rfl rfl
    | some v =>
      rw [CE_PlainOpt_some] at hpv
      rw [CE_yieldOpt_some]
      show caseOperand P (v.yield ++ kwT (c% "WHEN") :: r) = _
      refine ite_f ((CE.start v hpv.1 _ rfl).heads.notKw _ (by decide +kernel)) ?_
      exact bind_s ((hv v rfl).full 0 (by omega) _ (Stop.free (by decide +kernel))) rfl
  rw [pCase]
  refine bind_s hco ?_
  refine bind_s (whens_ok hne hw h1) ?_
  refine bind_s (optExpr_ok (by decide +kernel) he (Stop.free (by decide +kernel)) rfl) ?_
  exact bind_s (kw_same _ _ (by decide +kernel)) rfl

end Treeno
