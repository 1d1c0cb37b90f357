import Verif.Lemmas.Balance
import Verif.Lemmas.WfEqs
import Verif.Lemmas.ParseSound
/-!
# Whatever the parser has read holds no unrecognised character and no `/` before `*`
-/
set_option linter.unusedSimpArgs false
set_option linter.unusedVariables false
namespace Treeno
open Spec

/-- Every token is recognised, and no `*` follows a `/`; the flag tells that the last token was a `/`. -/
def clean : Bool → List Tok → Bool
  | _, [] => true
  | b, t :: ts => (t.kind != .unrec) && (!(b && t.isSym (c% "*")) && clean (t.isSym (c% "/")) ts)

/-- Recognised, and not a `/`. -/
def NC (t : Tok) : Prop := (t.kind == .unrec) = false ∧ t.isSym (c% "/") = false

/-- Whether the tokens that follow are clean does not depend on these tokens. -/
def Cln (ts : List Tok) : Prop := ∀ rest, clean false (ts ++ rest) = clean false rest

def ClnAll (xs : List (List Tok)) : Prop := ∀ x ∈ xs, Cln x

theorem Cln.nil : Cln [] := fun _ => rfl

theorem Cln.append {a b : List Tok} (ha : Cln a) (hb : Cln b) : Cln (a ++ b) := fun rest => by
  rw [List.append_assoc, ha, hb]

theorem clean_nc {t : Tok} (h : NC t) (ts : List Tok) : clean false (t :: ts) = clean false ts := by
  rw [clean, bne, h.1, h.2]
  simp

theorem Cln.cons {t : Tok} {a : List Tok} (ht : NC t) (ha : Cln a) : Cln (t :: a) := fun rest => by
  rw [List.cons_append, clean_nc ht, ha]

theorem Cln.parens {a : List Tok} (ha : Cln a) : Cln (inParens a) := by
  rw [inParens]
  exact Cln.cons ⟨rfl, rfl⟩ (ha.append (Cln.cons ⟨rfl, rfl⟩ (fun _ => rfl)))

theorem Cln.flag {b : Bool} {a : List Tok} (ha : Cln a) : Cln (flag b a) := by
  cases b
  · exact Cln.nil
  · exact ha

theorem Cln.sep {s : Tok} (hs : NC s) : ∀ {xs : List (List Tok)}, ClnAll xs → Cln (sepBy s xs)
  | [], _ => Cln.nil
  | [x], h => h x (by simp)
  | x :: y :: r, h =>
    (h x (by simp)).append (Cln.cons hs (Cln.sep hs fun z hz => h z (by simp at hz ⊢; exact .inr hz)))

theorem Cln.commas {xs : List (List Tok)} (h : ClnAll xs) : Cln (commas xs) := Cln.sep ⟨rfl, rfl⟩ h

theorem Cln.clause {pre : List Tok} {xs : List (List Tok)} (hp : Cln pre) (h : ClnAll xs) : Cln (clause pre xs) := by
  unfold Spec.clause
  split
  · exact Cln.nil
  · exact hp.append (Cln.commas h)

theorem Cln.order {xs : List (List Tok)} (h : ClnAll xs) : Cln (orderPart xs) :=
  Cln.clause (Cln.cons ⟨rfl, rfl⟩ (Cln.cons ⟨rfl, rfl⟩ Cln.nil)) h

theorem Cln.flatten {xs : List (List Tok)} (h : ClnAll xs) : Cln xs.flatten := by
  induction xs with
  | nil => exact Cln.nil
  | cons x xs ih =>
    rw [List.flatten_cons]
    exact (h x (by simp)).append (ih fun z hz => h z (by simp [hz]))

/-- An optional part. -/
def ClnOpt (o : Option (List Tok)) : Prop := ∀ x, o = some x → Cln x

theorem Cln.optPart {pre : List Tok} {o : Option (List Tok)} (hp : Cln pre) (h : ClnOpt o) : Cln (optPart pre o) := by
  cases o with
  | none => exact Cln.nil
  | some x => exact hp.append (h x rfl)

theorem Cln.optParen {pre : List Tok} {o : Option (List Tok)} (hp : Cln pre) (h : ClnOpt o) :
    Cln (optIn (symT (c% "(") :: pre) [symT (c% ")")] o) := by
  cases o with
  | none => exact Cln.nil
  | some x =>
    have := Cln.parens (hp.append (h x rfl))
    simpa [inParens, optIn] using this

theorem ClnAll.nil : ClnAll [] := by simp [ClnAll]
theorem ClnAll.cons {x : List Tok} {xs} (h : Cln x) (hs : ClnAll xs) : ClnAll (x :: xs) := by
  intro z hz
  simp at hz
  rcases hz with rfl | hz
  · exact h
  · exact hs z hz

theorem ClnOpt.none : ClnOpt none := by simp [ClnOpt]
theorem ClnOpt.some {x : List Tok} (h : Cln x) : ClnOpt (some x) := by
  intro y hy; cases hy; exact h

/-! ## Tokens -/

theorem NC.kind {t : Tok} (h : t.kind ≠ .sym ∧ t.kind ≠ .unrec) : NC t := by
  simp [NC, Tok.isSym, h.1, h.2]

theorem NC.ident {t : Tok} (h : Ident t) : NC t := by
  apply NC.kind
  rcases h with h | h | h | h | ⟨h, _⟩ <;> rw [h] <;> simp

theorem NC.word {t : Tok} (h : Word t) : NC t := NC.ident h.1

theorem NC.kwIn {ks : List Str} {t : Tok} (h : KwIn ks t) : NC t := by
  apply NC.kind
  unfold KwIn at h
  rw [List.mem_map] at h
  obtain ⟨k, _, rfl⟩ := h
  simp [kwT]

theorem NC.num {t : Tok} (h : Num t) : NC t := by
  apply NC.kind
  rcases h with h | h | h <;> rw [h] <;> simp

theorem NC.kw (k : Str) : NC (kwT k) := NC.kind (by simp [kwT])

theorem Cln.one {t : Tok} (h : NC t) : Cln [t] := Cln.cons h Cln.nil

theorem Cln.ofNC {ts : List Tok} (h : ∀ t ∈ ts, NC t) : Cln ts := by
  induction ts with
  | nil => exact Cln.nil
  | cons t ts ih => exact Cln.cons (h t (by simp)) (ih fun u hu => h u (by simp [hu]))

theorem Cln.optTok {p : Tok → Prop} (hp : ∀ t, p t → NC t) {o : Option Tok} (h : Opt p o) : Cln o.toList := by
  cases o with
  | none => exact Cln.nil
  | some t => exact Cln.one (hp t (h t rfl))

theorem ClnOpt.tok {p : Tok → Prop} (hp : ∀ t, p t → NC t) {o : Option Tok} (h : Opt p o) : ClnOpt (o.map fun x => [x]) := by
  cases o with
  | none => exact ClnOpt.none
  | some t => exact ClnOpt.some (Cln.one (hp t (h t rfl)))

theorem ClnAll.words {ns : List Tok} (h : Words ns) : ClnAll (ns.map fun t => [t]) := by
  intro x hx
  rw [List.mem_map] at hx
  obtain ⟨t, ht, rfl⟩ := hx
  exact Cln.one (NC.word (h t ht))

theorem Cln.qname {ns : List Tok} (h : Words ns) : Cln (qname ns) := Cln.sep ⟨rfl, rfl⟩ (ClnAll.words h)

theorem Cln.columns {ns : List Tok} (h : Words ns) : Cln (columns ns) := by
  unfold Spec.columns
  split
  · exact Cln.nil
  · exact Cln.parens (Cln.commas (ClnAll.words h))

theorem Cln.str {s : CStr} (h : PlainStr s) : Cln s.yield := by
  cases s with
  | basic t => exact Cln.one (NC.kind (by rw [show t.kind = _ from h]; simp))
  | unicode t e =>
    obtain ⟨h1, h2⟩ := h
    have ht : NC t := NC.kind (by rw [h1]; simp)
    cases e with
    | none => exact Cln.one ht
    | some e => exact Cln.cons ht (Cln.cons (NC.kw _) (Cln.one (NC.kind (by rw [h2 e rfl]; simp))))

theorem Cln.overflow {o : COverflow} (h : PlainOverflow o) : Cln o.yield := by
  cases o with
  | error => exact Cln.ofNC (by simp [COverflow.yield, NC.kw])
  | truncate f w =>
    rw [COverflow.yield]
    refine Cln.append (Cln.append (Cln.ofNC (by simp [NC.kw])) ?_) (Cln.ofNC (by simp [NC.kw]))
    cases f with
    | none => exact Cln.nil
    | some s => exact Cln.optPart Cln.nil (ClnOpt.some (Cln.str (h s rfl)))

theorem NC.count {t : Tok} (h : PlainCount t) : NC t := by
  rcases h with h | rfl
  · exact NC.kind (by simp [h])
  · exact ⟨by decide +kernel, by decide +kernel⟩

theorem Cln.offset {o} (h : PlainOffset o) : Cln (offsetPart o) := by
  cases o with
  | none => exact Cln.nil
  | some p =>
    obtain ⟨h1, h2⟩ := h p rfl
    exact Cln.cons (NC.kw _) (Cln.cons (NC.count h1) (Cln.optTok (fun _ => NC.kwIn) h2))

theorem Cln.limit {o} (h : PlainLimit o) : Cln (CLimit.yield o) := by
  cases o with
  | none => exact Cln.nil
  | limit t =>
    refine Cln.cons (NC.kw _) (Cln.one ?_)
    rcases h with h | rfl
    · exact NC.count h
    · exact NC.kw _
  | fetch f n r t =>
    obtain ⟨h1, h2, h3⟩ := h
    rw [CLimit.yield]
    simp only [List.cons_append, List.nil_append, List.append_assoc]
    refine Cln.cons (NC.kw _) (Cln.cons (NC.kwIn h1) (.append (Cln.optTok (fun _ => NC.count) h2) (Cln.cons (NC.kwIn h3) ?_)))
    cases t with
    | true => exact Cln.cons (NC.kw _) (Cln.one (NC.kw _))
    | false => exact Cln.one (NC.kw _)

theorem Cln.join (t : CJoin) : Cln t.yield := by
  cases t <;> rename_i b <;> cases b <;> exact Cln.ofNC (by simp [CJoin.yield, Spec.flag, NC.kw])

/-! ## Tokens -/

theorem NC.kof {ks : List Str} {t : Tok} (h : Kof ks t) : NC t := NC.kind (by rw [h.1]; simp)

theorem NC.k {k : Str} {t : Tok} (h : K k t) : NC t := NC.kind (by rw [h.1]; simp)

theorem NC.s {s : Str} {t : Tok} (h : S s t) (h1 : s ≠ c% "/") (h2 : s ≠ c% "/") : NC t := by
  cases h
  simp [NC, Tok.isSym, h1]

theorem NC.sof {ss : List Str} {t : Tok} (h : Sof ss t) (h1 : (c% "/") ∉ ss) (h2 : (c% "/") ∉ ss) : NC t := by
  constructor
  · rw [h.1]; rfl
  · simp only [Tok.isSym, Bool.and_eq_false_iff, beq_eq_false_iff_ne]
    exact .inr fun e => h1 (e ▸ h.2)

theorem NC.ivField {t : Tok} (h : IvField t) : NC t := by
  rcases h with h | h | h | h | h | h <;> exact NC.k h

theorem NC.countW {t : Tok} (h : Count t) : NC t := by
  rcases h with h | h
  · exact NC.kind (by simp [h])
  · exact NC.s h (by decide) (by decide)

theorem ClnAll.idents {ns : List Tok} (h : Idents ns) : ClnAll (ns.map fun t => [t]) := by
  intro x hx
  rw [List.mem_map] at hx
  obtain ⟨t, ht, rfl⟩ := hx
  exact Cln.one (NC.ident (h t ht))

theorem Cln.qnameI {ns : List Tok} (h : Idents ns) : Cln (Spec.qname ns) := Cln.sep ⟨rfl, rfl⟩ (ClnAll.idents h)

theorem Cln.columnsI {ns : List Tok} (h : Idents ns) : Cln (Spec.columns ns) := by
  unfold Spec.columns
  split
  · exact Cln.nil
  · exact Cln.parens (Cln.commas (ClnAll.idents h))

theorem Cln.strW {s : CStr} (h : s.Wf) : Cln s.yield := by
  cases s with
  | basic t => exact Cln.str (s := .basic t) h
  | unicode t e => exact Cln.str (s := .unicode t e) h

theorem Cln.overflowW {o : COverflow} (h : o.Wf) : Cln o.yield := by
  cases o with
  | error => exact Cln.ofNC (by simp [COverflow.yield, NC.kw])
  | truncate f w =>
    rw [COverflow.yield]
    refine Cln.append (Cln.append (Cln.ofNC (by simp [NC.kw])) ?_) (Cln.ofNC (by simp [NC.kw]))
    cases f with
    | none => exact Cln.nil
    | some s => exact Cln.optPart Cln.nil (ClnOpt.some (Cln.strW (h s rfl)))

theorem Cln.offsetW {o} (h : OptOffset o) : Cln (offsetPart o) := by
  cases o with
  | none => exact Cln.nil
  | some p =>
    obtain ⟨h1, h2⟩ := h p rfl
    exact Cln.cons (NC.kw _) (Cln.cons (NC.countW h1) (Cln.optTok (fun _ => NC.kof) h2))

theorem Cln.limitW {o : CLimit} (h : o.Wf) : Cln (CLimit.yield o) := by
  cases o with
  | none => exact Cln.nil
  | limit t =>
    refine Cln.cons (NC.kw _) (Cln.one ?_)
    rcases h with h | h
    · exact NC.countW h
    · exact NC.k h
  | fetch f n r t =>
    obtain ⟨h1, h2, h3⟩ := h
    rw [CLimit.yield]
    simp only [List.cons_append, List.nil_append, List.append_assoc]
    refine Cln.cons (NC.kw _) (Cln.cons (NC.kof h1) (.append (Cln.optTok (fun _ => NC.countW) h2) (Cln.cons (NC.kof h3) ?_)))
    cases t with
    | true => exact Cln.cons (NC.kw _) (Cln.one (NC.kw _))
    | false => exact Cln.one (NC.kw _)

/-! ## Types -/

theorem Cln.inPar {l r : Tok} {a : List Tok} (hl : S (c% "(") l) (hr : S (c% ")") r) (ha : Cln a) :
    Cln (l :: (a ++ [r])) := by
  cases hl; cases hr; exact Cln.parens ha

theorem cln_zone {z : Option Bool} {ts : List Tok} (h : GZone z ts) : Cln ts := by
  cases h with
  | none => exact Cln.nil
  | without a b c => exact Cln.cons (NC.k a) (Cln.cons (NC.k b) (Cln.one (NC.k c)))
  | with_ a b c => exact Cln.cons (NC.k a) (Cln.cons (NC.k b) (Cln.one (NC.k c)))

mutual
theorem cln_gty : ∀ {c : CTy} {ts : List Tok}, GTy c ts → Cln ts
  | _, _, .row a l f r => Cln.cons (NC.k a) (Cln.inPar l r (cln_gfields f))
  | _, _, .interval a f => Cln.cons (NC.k a) (Cln.one (NC.ivField f))
  | _, _, .intervalTo a f b g => Cln.cons (NC.k a) (Cln.cons (NC.ivField f) (Cln.cons (NC.k b) (Cln.one (NC.ivField g))))
  | _, _, .timestamp a p z => Cln.cons (NC.k a) ((cln_gprec p).append (cln_zone z))
  | _, _, .time a p z => Cln.cons (NC.k a) ((cln_gprec p).append (cln_zone z))
  | _, _, .double a b => Cln.cons (NC.k a) (Cln.one (NC.k b))
  | _, _, .legacyArray a l t r => Cln.cons (NC.k a) (Cln.cons (NC.s l (by decide) (by decide))
      ((cln_gty t).append (Cln.one (NC.s r (by decide) (by decide)))))
  | _, _, .legacyMap a l t m u r => Cln.cons (NC.k a) (Cln.cons (NC.s l (by decide) (by decide))
      ((cln_gty t).append (Cln.cons (NC.s m (by decide) (by decide))
        ((cln_gty u).append (Cln.one (NC.s r (by decide) (by decide)))))))
  | _, _, .arrayOf t a => (cln_gty t).append (Cln.one (NC.k a))
  | _, _, .arrayOfSize t a l n r => (cln_gty t).append (Cln.cons (NC.k a) (Cln.cons (NC.s l (by decide) (by decide))
      (Cln.cons (NC.kind (by rw [n]; simp)) (Cln.one (NC.s r (by decide) (by decide))))))
  | _, _, .name a => Cln.one (NC.ident a)
  | _, _, .generic a l p r => Cln.cons (NC.ident a) (Cln.inPar l r (cln_gparams p))
theorem cln_gprec : ∀ {c : Option CTParam} {ts : List Tok}, GPrec c ts → Cln ts
  | _, _, .none => Cln.nil
  | _, _, .some l p r => Cln.inPar l r (cln_gparam p)
theorem cln_gparam : ∀ {c : CTParam} {ts : List Tok}, GParam c ts → Cln ts
  | _, _, .int h => Cln.one (NC.kind (by rw [h]; simp))
  | _, _, .ty t => cln_gty t
theorem cln_gparams : ∀ {c : List CTParam} {ts : List Tok}, GParams c ts → Cln ts
  | _, _, .one p => cln_gparam p
  | _, _, .more p m ps => (cln_gparam p).append (Cln.cons (NC.s m (by decide) (by decide)) (cln_gparams ps))
theorem cln_gfield : ∀ {c : CField} {ts : List Tok}, GField c ts → Cln ts
  | _, _, .unnamed t => cln_gty t
  | _, _, .named n t => Cln.cons (NC.ident n) (cln_gty t)
theorem cln_gfields : ∀ {c : List CField} {ts : List Tok}, GFields c ts → Cln ts
  | _, _, .one p => cln_gfield p
  | _, _, .more p m ps => (cln_gfield p).append (Cln.cons (NC.s m (by decide) (by decide)) (cln_gfields ps))
end

/-! ## Trees -/

/-- The first token is not `*`. -/
def HeadNS (ts : List Tok) : Prop := ∃ t u, ts = t :: u ∧ t.isSym (c% "*") = false

theorem HeadNS.app {a b : List Tok} (h : HeadNS a) : HeadNS (a ++ b) := by
  obtain ⟨t, u, rfl, ht⟩ := h
  exact ⟨t, u ++ b, rfl, ht⟩

theorem HeadNS.kind {t : Tok} {u : List Tok} (h : t.kind ≠ .sym) : HeadNS (t :: u) := ⟨t, u, rfl, by simp [Tok.isSym, h]⟩

theorem HeadNS.ident {t : Tok} {u : List Tok} (h : Ident t) : HeadNS (t :: u) := by
  apply HeadNS.kind
  rcases h with h | h | h | h | ⟨h, _⟩ <;> rw [h] <;> simp

theorem HeadNS.kof {ks : List Str} {t : Tok} {u : List Tok} (h : Kof ks t) : HeadNS (t :: u) := HeadNS.kind (by rw [h.1]; simp)

theorem HeadNS.qname {n r : List Tok} (hn : n ≠ []) (h : Idents n) : HeadNS (Spec.qname n ++ r) := by
  match n, hn with
  | [t], _ => exact HeadNS.ident (h t (by simp))
  | t :: u :: n, _ => exact HeadNS.ident (h t (by simp))

theorem CE.headStar : ∀ c : CE, c.Wf → HeadNS c.yield
  | .or_ l r, h => by rw [CE_Wf_or_] at h; rw [CE_yield_or_]; exact (CE.headStar l h.1).app
  | .and_ l r, h => by rw [CE_Wf_and_] at h; rw [CE_yield_and_]; exact (CE.headStar l h.1).app
  | .cmp op l r, h => by rw [CE_Wf_cmp] at h; rw [CE_yield_cmp]; exact (CE.headStar l h.2.1).app
  | .between a l c d, h => by rw [CE_Wf_between] at h; rw [CE_yield_between]; exact (CE.headStar l h.1).app
  | .inList a l c, h => by rw [CE_Wf_inList] at h; rw [CE_yield_inList]; exact (CE.headStar l h.1).app
  | .inSub a l c, h => by rw [CE_Wf_inSub] at h; rw [CE_yield_inSub]; exact (CE.headStar l h.1).app
  | .like a l c d, h => by rw [CE_Wf_like] at h; rw [CE_yield_like]; exact (CE.headStar l h.1).app
  | .isNull a l, h => by rw [CE_Wf_isNull] at h; rw [CE_yield_isNull]; exact (CE.headStar l h.1).app
  | .distinct a l r, h => by rw [CE_Wf_distinct] at h; rw [CE_yield_distinct]; exact (CE.headStar l h.1).app
  | .quantified a b l q, h => by rw [CE_Wf_quantified] at h; rw [CE_yield_quantified]; exact (CE.headStar l h.2.2.1).app
  | .concat l r, h => by rw [CE_Wf_concat] at h; rw [CE_yield_concat]; exact (CE.headStar l h.1).app
  | .arith op l r, h => by rw [CE_Wf_arith] at h; rw [CE_yield_arith]; exact (CE.headStar l h.2.1).app
  | .atZone l z, h => by rw [CE_Wf_atZone] at h; rw [CE_yield_atZone]; exact (CE.headStar l h.1).app
  | .subscript l i, h => by rw [CE_Wf_subscript] at h; rw [CE_yield_subscript]; exact (CE.headStar l h.1).app
  | .deref l n, h => by rw [CE_Wf_deref] at h; rw [CE_yield_deref]; exact (CE.headStar l h.1).app
  | .not_ v, h => by rw [CE_yield_not_]; exact ⟨_, _, rfl, rfl⟩
  | .null, h => by rw [CE_yield_null]; exact ⟨_, _, rfl, rfl⟩
  | .interval a b c d, h => by rw [CE_yield_interval]; exact ⟨_, _, rfl, rfl⟩
  | .doublePrecision s, h => by rw [CE_yield_doublePrecision]; exact ⟨_, _, rfl, rfl⟩
  | .param, h => by rw [CE_yield_param]; exact ⟨_, _, rfl, rfl⟩
  | .row es, h => by rw [CE_yield_row]; exact ⟨_, _, rfl, rfl⟩
  | .rowKw es, h => by rw [CE_yield_rowKw]; exact ⟨_, _, rfl, rfl⟩
  | .listagg a b c d e, h => by rw [CE_yield_listagg]; exact ⟨_, _, rfl, rfl⟩
  | .sub q, h => by rw [CE_yield_sub]; exact ⟨_, _, rfl, rfl⟩
  | .case a b c, h => by rw [CE_yield_case]; exact ⟨_, _, rfl, rfl⟩
  | .array es, h => by rw [CE_yield_array]; exact ⟨_, _, rfl, rfl⟩
  | .normalize a b, h => by rw [CE_yield_normalize]; exact ⟨_, _, rfl, rfl⟩
  | .paren e, h => by rw [CE_yield_paren]; exact ⟨_, _, rfl, rfl⟩
  | .exists_ q, h => by rw [CE_yield_exists_]; exact ⟨_, _, rfl, rfl⟩
  | .position a b, h => by rw [CE_yield_position]; exact ⟨_, _, rfl, rfl⟩
  | .substring a b c, h => by rw [CE_yield_substring]; exact ⟨_, _, rfl, rfl⟩
  | .extract a b, h => by rw [CE_yield_extract]; exact ⟨_, _, rfl, rfl⟩
  | .trimFrom a b c, h => by rw [CE_yield_trimFrom]; exact ⟨_, _, rfl, rfl⟩
  | .trim a b, h => by rw [CE_yield_trim]; exact ⟨_, _, rfl, rfl⟩
  | .grouping a, h => by rw [CE_yield_grouping]; exact ⟨_, _, rfl, rfl⟩
  | .cast a b c d, h => by rw [CE_yield_cast]; cases a <;> exact ⟨_, _, rfl, rfl⟩
  | .sign op v, h => by
    rw [CE_Wf_sign] at h; rw [CE_yield_sign]
    refine ⟨_, _, rfl, ?_⟩
    simp only [Tok.isSym, Bool.and_eq_false_iff, beq_eq_false_iff_ne]
    exact .inr fun e => absurd (e ▸ h.1.2) (by decide)
  | .typeCtor n s, h => by rw [CE_Wf_typeCtor] at h; rw [CE_yield_typeCtor]; exact HeadNS.ident h.1
  | .num m t, h => by
    rw [CE_Wf_num] at h; rw [CE_yield_num]
    cases m
    · exact HeadNS.kind (by rcases h with h | h | h <;> rw [h] <;> simp)
    · exact ⟨_, _, rfl, rfl⟩
  | .bool t, h => by rw [CE_Wf_bool] at h; rw [CE_yield_bool]; exact HeadNS.kof h
  | .str s, h => by
    rw [CE_Wf_str] at h; rw [CE_yield_str]
    cases s with
    | basic t => exact HeadNS.kind (by rw [show t.kind = _ from h]; simp)
    | unicode t e =>
      obtain ⟨h1, h2⟩ := h
      cases e <;> exact HeadNS.kind (by rw [h1]; simp)
  | .binary t, h => by rw [CE_Wf_binary] at h; rw [CE_yield_binary]; exact HeadNS.kind (by rw [h]; simp)
  | .callStar n l f w, h => by rw [CE_Wf_callStar] at h; rw [CE_yield_callStar]; exact HeadNS.qname h.1 h.2.1
  | .call n q args ob f ign w, h => by rw [CE_Wf_call] at h; rw [CE_yield_call]; exact HeadNS.qname h.1 h.2.1
  | .lam p ids b, h => by
    rw [CE_Wf_lam] at h; rw [CE_yield_lam]
    cases p
    · match ids, h.2.1 rfl with
      | [t], _ => exact HeadNS.ident (h.1 t (by simp))
    · exact ⟨_, _, rfl, rfl⟩
  | .col t, h => by rw [CE_Wf_col] at h; rw [CE_yield_col]; exact HeadNS.ident h
  | .dateTime t p, h => by
    rw [CE_Wf_dateTime] at h; rw [CE_yield_dateTime]
    rcases h with h | h
    · exact HeadNS.kind (by rw [h.1.1]; simp)
    · exact HeadNS.kof h.1
  | .session t, h => by rw [CE_Wf_session] at h; rw [CE_yield_session]; exact HeadNS.kof h

theorem Cln.arith {op : Tok} {r : List Tok} (h : Sof [c% "+", c% "-", c% "*", c% "/", c% "%"] op) (hr : HeadNS r) (hc : Cln r) :
    Cln (op :: r) := by
  intro rest
  obtain ⟨t, u, rfl, ht⟩ := hr
  rw [List.cons_append, clean, h.1, ← hc rest]
  show (true && (_ && clean _ (t :: (u ++ rest)))) = clean false (t :: (u ++ rest))
  rw [clean, clean, ht]
  simp

mutual
theorem CE.wcln : ∀ c : CE, c.Wf → Cln c.yield
  | .or_ l r, h => by
    rw [CE_Wf_or_] at h; rw [CE_yield_or_]
    exact (CE.wcln l h.1).append (Cln.cons (NC.kw _) (CE.wcln r h.2.1))
  | .and_ l r, h => by
    rw [CE_Wf_and_] at h; rw [CE_yield_and_]
    exact (CE.wcln l h.1).append (Cln.cons (NC.kw _) (CE.wcln r h.2.2.1))
  | .not_ v, h => by
    rw [CE_Wf_not_] at h; rw [CE_yield_not_]
    exact (Cln.cons (NC.kw _) (CE.wcln v h.1))
  | .cmp op l r, h => by
    rw [CE_Wf_cmp] at h; rw [CE_yield_cmp]
    exact (CE.wcln l h.2.1).append (Cln.cons (NC.sof h.1 (by decide) (by decide)) (CE.wcln r h.2.2.2.1))
  | .between neg v l u, h => by
    rw [CE_Wf_between] at h; rw [CE_yield_between]
    exact (CE.wcln v h.1).append (.append (Cln.flag (Cln.one (NC.kw _))) (Cln.cons (NC.kw _)
      ((CE.wcln l h.2.2.1).append (Cln.cons (NC.kw _) (CE.wcln u h.2.2.2.2.1)))))
  | .inList neg v es, h => by
    rw [CE_Wf_inList] at h; rw [CE_yield_inList]
    exact (CE.wcln v h.1).append (.append (Cln.flag (Cln.one (NC.kw _))) (Cln.cons (NC.kw _)
      (Cln.parens (Cln.commas (CE.wclns es h.2.2.2)))))
  | .inSub neg v q, h => by
    rw [CE_Wf_inSub] at h; rw [CE_yield_inSub]
    exact (CE.wcln v h.1).append (.append (Cln.flag (Cln.one (NC.kw _))) (Cln.cons (NC.kw _)
      (Cln.parens (CQ.wcln q h.2.2))))
  | .like neg v p esc, h => by
    rw [CE_Wf_like] at h; rw [CE_yield_like]
    exact (CE.wcln v h.1).append (.append (Cln.flag (Cln.one (NC.kw _))) (Cln.cons (NC.kw _)
      ((CE.wcln p h.2.2.1).append (Cln.optPart (Cln.one (NC.kw _)) (CE.wclnOpt esc h.2.2.2.2)))))
  | .isNull neg v, h => by
    rw [CE_Wf_isNull] at h; rw [CE_yield_isNull]
    exact (CE.wcln v h.1).append (Cln.cons (NC.kw _) (.append (Cln.flag (Cln.one (NC.kw _))) (Cln.one (NC.kw _))))
  | .distinct neg l r, h => by
    rw [CE_Wf_distinct] at h; rw [CE_yield_distinct]
    exact (CE.wcln l h.1).append (Cln.cons (NC.kw _) (.append (Cln.flag (Cln.one (NC.kw _))) (Cln.cons (NC.kw _)
      (Cln.cons (NC.kw _) (CE.wcln r h.2.2.1)))))
  | .concat l r, h => by
    rw [CE_Wf_concat] at h; rw [CE_yield_concat]
    exact (CE.wcln l h.1).append (Cln.cons ⟨rfl, rfl⟩ (CE.wcln r h.2.2.1))
  | .arith op l r, h => by
    rw [CE_Wf_arith] at h; rw [CE_yield_arith]
    exact (CE.wcln l h.2.1).append (Cln.arith h.1 (CE.headStar r h.2.2.1) (CE.wcln r h.2.2.1))
  | .sign op v, h => by
    rw [CE_Wf_sign] at h; rw [CE_yield_sign]
    exact Cln.cons (NC.sof h.1 (by decide) (by decide)) (CE.wcln v h.2.1)
  | .null, h => by rw [CE_yield_null]; exact Cln.one (NC.kw _)
  | .typeCtor n s, h => by
    rw [CE_Wf_typeCtor] at h; rw [CE_yield_typeCtor]; exact Cln.cons (NC.ident h.1) (Cln.strW h.2)
  | .num m t, h => by
    rw [CE_Wf_num] at h; rw [CE_yield_num]
    exact .append (Cln.flag (Cln.one ⟨rfl, rfl⟩)) (Cln.one (NC.num h))
  | .bool t, h => by rw [CE_Wf_bool] at h; rw [CE_yield_bool]; exact Cln.one (NC.kof h)
  | .str s, h => by rw [CE_Wf_str] at h; rw [CE_yield_str]; exact Cln.strW h
  | .binary t, h => by rw [CE_Wf_binary] at h; rw [CE_yield_binary]; exact Cln.one (NC.kind (by simp [h]))
  | .param, h => by rw [CE_yield_param]; exact Cln.one ⟨rfl, rfl⟩
  | .row es, h => by
    rw [CE_Wf_row] at h; rw [CE_yield_row]; exact Cln.parens (Cln.commas (CE.wclns es h.2))
  | .rowKw es, h => by
    rw [CE_Wf_rowKw] at h; rw [CE_yield_rowKw]; exact Cln.cons (NC.kw _) (Cln.parens (Cln.commas (CE.wclns es h.2)))
  | .listagg q e sep ov ob, h => by
    rw [CE_Wf_listagg] at h; rw [CE_yield_listagg]
    obtain ⟨h1, h2, h3, h4, _, h6⟩ := h
    refine Cln.cons (NC.kw _) (.append (Cln.parens (.append (.append (.append (Cln.optTok (fun _ => NC.kof) h1) (CE.wcln e h2)) ?_) ?_)) (Cln.cons (NC.kw _) (Cln.cons (NC.kw _) (Cln.parens (Cln.order (CSort.wclns ob h6))))))
    · refine Cln.optPart (Cln.one ⟨rfl, rfl⟩) ?_
      intro x hx
      rw [Option.map_eq_some_iff] at hx
      obtain ⟨s, hs, rfl⟩ := hx
      exact Cln.strW (h3 s hs)
    · refine Cln.optPart Cln.nil ?_
      intro x hx
      rw [Option.map_eq_some_iff] at hx
      obtain ⟨s, hs, rfl⟩ := hx
      exact Cln.overflowW (h4 s hs)
  | .callStar n l f w, h => by
    rw [CE_Wf_callStar] at h; rw [CE_yield_callStar]
    obtain ⟨_, ht, h2, h3, h4⟩ := h
    refine .append (Cln.qnameI ht) (.append (Cln.parens (.append ?_ (Cln.one ⟨rfl, rfl⟩))) (.append ?_ ?_))
    · cases l with
      | none => exact Cln.nil
      | some l => exact Cln.cons (NC.ident (h2 l rfl)) (Cln.one ⟨rfl, rfl⟩)
    · have := Cln.optParen (Cln.one (NC.kw (c% "WHERE"))) (CE.wclnOpt f h3)
      cases f with
      | none => exact Cln.nil
      | some f => exact Cln.cons (NC.kw _) this
    · exact Cln.optPart (Cln.one (NC.kw _)) (CWin.wclnOpt w h4)
  | .call n q args ob f ign w, h => by
    rw [CE_Wf_call] at h; rw [CE_yield_call]
    obtain ⟨_, ht, h2, _, h4, h5, h6, _, h8⟩ := h
    refine .append (Cln.qnameI ht) (.append (Cln.parens (.append (.append (Cln.optTok (fun _ => NC.kof) h2) (Cln.commas (CE.wclns args h4))) (Cln.order (CSort.wclns ob h5)))) (.append ?_ (.append ?_ ?_)))
    · have := Cln.optParen (Cln.one (NC.kw (c% "WHERE"))) (CE.wclnOpt f h6)
      cases f with
      | none => exact Cln.nil
      | some f => exact Cln.cons (NC.kw _) this
    · cases ign with
      | none => exact Cln.nil
      | some b => exact Cln.cons (NC.kw _) (Cln.one (NC.kw _))
    · exact Cln.optPart (Cln.one (NC.kw _)) (CWin.wclnOpt w h8)
  | .lam p ids b, h => by
    rw [CE_Wf_lam] at h; rw [CE_yield_lam]
    obtain ⟨h2, _, h4⟩ := h
    refine .append ?_ (Cln.cons ⟨rfl, rfl⟩ (CE.wcln b h4))
    cases p with
    | true => exact Cln.parens (Cln.commas (ClnAll.idents h2))
    | false => exact Cln.ofNC (fun t ht => NC.ident (h2 t ht))
  | .case v ws e, h => by
    rw [CE_Wf_case] at h; rw [CE_yield_case]
    obtain ⟨h1, _, h3, h4⟩ := h
    exact Cln.cons (NC.kw _) (.append (Cln.optPart Cln.nil (CE.wclnOpt v h1)) (.append (Cln.flatten (CWhen.wclns ws h3))
      (.append (Cln.optPart (Cln.one (NC.kw _)) (CE.wclnOpt e h4)) (Cln.one (NC.kw _)))))
  | .cast tr e ty ts, h => by
    rw [CE_Wf_cast] at h; rw [CE_yield_cast]
    exact Cln.cons (NC.kw _) (Cln.parens (.append (CE.wcln e h.1) (Cln.cons (NC.kw _) (cln_gty h.2))))
  | .array es, h => by
    rw [CE_Wf_array] at h; rw [CE_yield_array]
    exact Cln.cons (NC.kw _) (Cln.cons ⟨rfl, rfl⟩ (.append (Cln.commas (CE.wclns es h)) (Cln.one ⟨rfl, rfl⟩)))
  | .subscript v i, h => by
    rw [CE_Wf_subscript] at h; rw [CE_yield_subscript]
    exact (CE.wcln v h.1).append (Cln.cons ⟨rfl, rfl⟩ ((CE.wcln i h.2.2.1).append (Cln.one ⟨rfl, rfl⟩)))
  | .col t, h => by rw [CE_Wf_col] at h; rw [CE_yield_col]; exact Cln.one (NC.ident h)
  | .deref v n, h => by
    rw [CE_Wf_deref] at h; rw [CE_yield_deref]
    exact (CE.wcln v h.1).append (Cln.cons ⟨rfl, rfl⟩ (Cln.one (NC.ident h.2.2)))
  | .dateTime t p, h => by
    rw [CE_Wf_dateTime] at h; rw [CE_yield_dateTime]
    rcases h with ⟨h1, rfl⟩ | ⟨h1, h2⟩
    · exact Cln.one (NC.k h1)
    · refine Cln.cons (NC.kof h1) (Cln.optParen Cln.nil ?_)
      intro x hx
      rw [Option.map_eq_some_iff] at hx
      obtain ⟨s, hs, rfl⟩ := hx
      exact Cln.one (NC.kind (by simp [h2 s hs]))
  | .session t, h => by rw [CE_Wf_session] at h; rw [CE_yield_session]; exact Cln.one (NC.kof h)
  | .paren e, h => by rw [CE_Wf_paren] at h; rw [CE_yield_paren]; exact Cln.parens (CE.wcln e h)
  | .sub q, h => by rw [CE_Wf_sub] at h; rw [CE_yield_sub]; exact Cln.parens (CQ.wcln q h)
  | .interval sg s f t, h => by
    rw [CE_Wf_interval] at h; rw [CE_yield_interval]
    obtain ⟨h1, h2, h3, h4⟩ := h
    refine Cln.cons (NC.kw _) (.append ?_ (.append (Cln.strW h2) (Cln.cons (NC.ivField h3) (Cln.optPart (Cln.one (NC.kw _)) ?_))))
    · refine Cln.optTok (fun t ht => ?_) h1
      exact NC.sof ht (by decide) (by decide)
    · exact ClnOpt.tok (fun _ => NC.ivField) h4
  | .doublePrecision s, h => by
    rw [CE_Wf_doublePrecision] at h; rw [CE_yield_doublePrecision]
    exact Cln.cons (NC.kw _) (Cln.cons (NC.kw _) (Cln.strW h))
  | .normalize v f, h => by
    rw [CE_Wf_normalize] at h; rw [CE_yield_normalize]
    exact Cln.cons (NC.kw _) (Cln.parens ((CE.wcln v h.1).append (Cln.optPart (Cln.one ⟨rfl, rfl⟩) (ClnOpt.tok (fun _ => NC.kof) h.2.2))))
  | .quantified op k l q, h => by
    rw [CE_Wf_quantified] at h; rw [CE_yield_quantified]
    obtain ⟨h1, h2, h3, h4, h5⟩ := h
    exact (CE.wcln l h3).append (Cln.cons (NC.sof h1 (by decide) (by decide)) (Cln.cons (NC.kof h2) (Cln.parens (CQ.wcln q h5))))
  | .atZone v z, h => by
    rw [CE_Wf_atZone] at h; rw [CE_yield_atZone]
    exact (CE.wcln v h.1).append (Cln.cons (NC.kw _) (Cln.cons (NC.kw _) (Cln.cons (NC.kw _) (CE.wcln z h.2.2.2.1))))
  | .exists_ q, h => by
    rw [CE_Wf_exists_] at h; rw [CE_yield_exists_]; exact Cln.cons (NC.kw _) (Cln.parens (CQ.wcln q h))
  | .position l r, h => by
    rw [CE_Wf_position] at h; rw [CE_yield_position]
    exact Cln.cons (NC.kw _) (Cln.parens ((CE.wcln l h.1).append (Cln.cons (NC.kw _) (CE.wcln r h.2.2.1))))
  | .substring v f n, h => by
    rw [CE_Wf_substring] at h; rw [CE_yield_substring]
    exact Cln.cons (NC.kw _) (Cln.parens ((CE.wcln v h.1).append (Cln.cons (NC.kw _) ((CE.wcln f h.2.2.1).append
      (Cln.optPart (Cln.one (NC.kw _)) (CE.wclnOpt n h.2.2.2.2))))))
  | .extract t v, h => by
    rw [CE_Wf_extract] at h; rw [CE_yield_extract]
    exact Cln.cons (NC.kw _) (Cln.parens (Cln.cons (NC.ident h.1) (Cln.cons (NC.kw _) (CE.wcln v h.2.1))))
  | .trimFrom s c v, h => by
    rw [CE_Wf_trimFrom] at h; rw [CE_yield_trimFrom]
    exact Cln.cons (NC.kw _) (Cln.parens ((Cln.optTok (fun _ => NC.kof) h.1).append ((Cln.optPart Cln.nil (CE.wclnOpt c h.2.1)).append
      (Cln.cons (NC.kw _) (CE.wcln v h.2.2.1)))))
  | .trim v c, h => by
    rw [CE_Wf_trim] at h; rw [CE_yield_trim]
    exact Cln.cons (NC.kw _) (Cln.parens ((CE.wcln v h.1).append (Cln.optPart (Cln.one ⟨rfl, rfl⟩) (CE.wclnOpt c h.2.2))))
  | .grouping ns, h => by
    rw [CE_Wf_grouping] at h; rw [CE_yield_grouping]
    refine Cln.cons (NC.kw _) (Cln.parens (Cln.commas ?_))
    intro x hx
    rw [List.mem_map] at hx
    obtain ⟨n, hn, rfl⟩ := hx
    exact Cln.qnameI (h n hn).2
theorem CE.wclns : ∀ es : List CE, CE.Wfs es → ClnAll (CE.yields es)
  | [], _ => by rw [CE_yields_nil]; exact ClnAll.nil
  | e :: es, h => by
    rw [CE_Wfs_cons] at h; rw [CE_yields_cons]; exact ClnAll.cons (CE.wcln e h.1) (CE.wclns es h.2)
theorem CE.wclnOpt {p : Nat} : ∀ o : Option CE, CE.WfOpt p o → ClnOpt (CE.yieldOpt o)
  | none, _ => by rw [CE_yieldOpt_none]; exact ClnOpt.none
  | some e, h => by rw [CE_WfOpt_some] at h; rw [CE_yieldOpt_some]; exact ClnOpt.some (CE.wcln e h.1)
theorem CWhen.wclns : ∀ ws : List CWhen, CWhen.Wfs ws → ClnAll (CWhen.yields ws)
  | [], _ => by rw [CWhen_yields_nil]; exact ClnAll.nil
  | .mk c v :: ws, h => by
    rw [CWhen_Wfs_cons] at h; rw [CWhen_yields_cons]
    exact ClnAll.cons (Cln.cons (NC.kw _) (.append (CE.wcln c h.1) (Cln.cons (NC.kw _) (CE.wcln v h.2.1)))) (CWhen.wclns ws h.2.2)
theorem CSort.wclns : ∀ ws : List CSort, CSort.Wfs ws → ClnAll (CSort.yields ws)
  | [], _ => by rw [CSort_yields_nil]; exact ClnAll.nil
  | .mk e o n :: ws, h => by
    rw [CSort_Wfs_cons] at h; rw [CSort_yields_cons]
    obtain ⟨h1, h2, h3, h4⟩ := h
    refine ClnAll.cons (.append (CE.wcln e h1) (.append (Cln.optTok (fun _ => NC.kof) h2) (Cln.optPart (Cln.one (NC.kw _)) ?_))) (CSort.wclns ws h4)
    intro x hx
    rw [Option.map_eq_some_iff] at hx
    obtain ⟨s, hs, rfl⟩ := hx
    exact Cln.one (NC.kof (h3 s hs))
theorem CBound.wcln : ∀ b : CBound, b.Wf → Cln b.yield
  | .unbounded t, h => by
    rw [CBound_Wf_unbounded] at h; rw [CBound_yield_unbounded]; exact Cln.cons (NC.kw _) (Cln.one (NC.kof h))
  | .current, _ => by rw [CBound_yield_current]; exact Cln.cons (NC.kw _) (Cln.one (NC.kw _))
  | .bounded e t, h => by
    rw [CBound_Wf_bounded] at h; rw [CBound_yield_bounded]; exact (CE.wcln e h.1).append (Cln.one (NC.kof h.2))
theorem CFrame.wcln : ∀ f : CFrame, f.Wf → Cln f.yield
  | .none, _ => by rw [CFrame_yield_none]; exact Cln.nil
  | .from_ t b, h => by
    rw [CFrame_Wf_from_] at h; rw [CFrame_yield_from_]; exact Cln.cons (NC.kof h.1) (CBound.wcln b h.2)
  | .between t a b, h => by
    rw [CFrame_Wf_between] at h; rw [CFrame_yield_between]
    exact Cln.cons (NC.kof h.1) (Cln.cons (NC.kw _) ((CBound.wcln a h.2.1).append (Cln.cons (NC.kw _) (CBound.wcln b h.2.2))))
theorem CWin.wcln : ∀ w : CWin, w.Wf → Cln w.yield
  | .ref t, h => by rw [CWin_Wf_ref] at h; rw [CWin_yield_ref]; exact Cln.one (NC.ident h)
  | .spec p ps ob f, h => by
    rw [CWin_Wf_spec] at h; rw [CWin_yield_spec]
    obtain ⟨h1, h2, h3, h4⟩ := h
    exact Cln.parens (.append (Cln.optTok (fun _ => NC.ident) h1) (.append (Cln.clause (Cln.cons (NC.kw _) (Cln.one (NC.kw _))) (CE.wclns ps h2))
      (.append (Cln.order (CSort.wclns ob h3)) (CFrame.wcln f h4))))
theorem CWin.wclnOpt : ∀ o : Option CWin, CWin.WfOpt o → ClnOpt (CWin.yieldOpt o)
  | none, _ => by rw [CWin_yieldOpt_none]; exact ClnOpt.none
  | some e, h => by rw [CWin_WfOpt_some] at h; rw [CWin_yieldOpt_some]; exact ClnOpt.some (CWin.wcln e h)
theorem CSet.wcln : ∀ s : CSet, s.Wf → Cln s.yield
  | .paren es, h => by
    rw [CSet_Wf_paren] at h; rw [CSet_yield_paren]; exact Cln.parens (Cln.commas (CE.wclns es h))
  | .expr e, h => by rw [CSet_Wf_expr] at h; rw [CSet_yield_expr]; exact CE.wcln e h
theorem CSet.wclns : ∀ es : List CSet, CSet.Wfs es → ClnAll (CSet.yields es)
  | [], _ => by rw [CSet_yields_nil]; exact ClnAll.nil
  | e :: es, h => by
    rw [CSet_Wfs_cons] at h; rw [CSet_yields_cons]; exact ClnAll.cons (CSet.wcln e h.1) (CSet.wclns es h.2)
theorem CGrp.wcln : ∀ s : CGrp, s.Wf → Cln s.yield
  | .single s, h => by rw [CGrp_Wf_single] at h; rw [CGrp_yield_single]; exact CSet.wcln s h
  | .rollup es, h => by
    rw [CGrp_Wf_rollup] at h; rw [CGrp_yield_rollup]
    exact Cln.cons (NC.kw _) (Cln.parens (Cln.commas (CE.wclns es h)))
  | .cube es, h => by
    rw [CGrp_Wf_cube] at h; rw [CGrp_yield_cube]
    exact Cln.cons (NC.kw _) (Cln.parens (Cln.commas (CE.wclns es h)))
  | .sets ss, h => by
    rw [CGrp_Wf_sets] at h; rw [CGrp_yield_sets]
    exact Cln.cons (NC.kw _) (Cln.cons (NC.kw _) (Cln.parens (Cln.commas (CSet.wclns ss h.2))))
theorem CGrp.wclns : ∀ es : List CGrp, CGrp.Wfs es → ClnAll (CGrp.yields es)
  | [], _ => by rw [CGrp_yields_nil]; exact ClnAll.nil
  | e :: es, h => by
    rw [CGrp_Wfs_cons] at h; rw [CGrp_yields_cons]; exact ClnAll.cons (CGrp.wcln e h.1) (CGrp.wclns es h.2)
theorem CItem.wcln : ∀ s : CItem, s.Wf → Cln s.yield
  | .expr e b a, h => by
    rw [CItem_Wf_expr] at h; rw [CItem_yield_expr]
    exact (CE.wcln e h.1).append (.append (Cln.flag (Cln.one (NC.kw _))) (Cln.optTok (fun _ => NC.ident) h.2.1))
  | .allOf e cols, h => by
    rw [CItem_Wf_allOf] at h; rw [CItem_yield_allOf]
    exact (CE.wcln e h.1).append (Cln.cons ⟨rfl, rfl⟩ (Cln.cons ⟨rfl, rfl⟩ (.append (Cln.flag (Cln.one (NC.kw _))) (Cln.columnsI h.2.2))))
  | .all, _ => by rw [CItem_yield_all]; exact Cln.one ⟨rfl, rfl⟩
theorem CItem.wclns : ∀ es : List CItem, CItem.Wfs es → ClnAll (CItem.yields es)
  | [], _ => by rw [CItem_yields_nil]; exact ClnAll.nil
  | e :: es, h => by
    rw [CItem_Wfs_cons] at h; rw [CItem_yields_cons]; exact ClnAll.cons (CItem.wcln e h.1) (CItem.wclns es h.2)
theorem CWinDef.wclns : ∀ es : List CWinDef, CWinDef.Wfs es → ClnAll (CWinDef.yields es)
  | [], _ => by rw [CWinDef_yields_nil]; exact ClnAll.nil
  | .mk n w :: es, h => by
    rw [CWinDef_Wfs_cons] at h; rw [CWinDef_yields_cons]
    exact ClnAll.cons (Cln.cons (NC.ident h.1) (Cln.cons (NC.kw _) (CWin.wcln w h.2.2.1))) (CWinDef.wclns es h.2.2.2)
theorem CQ.wcln : ∀ q : CQ, q.Wf → Cln q.yield
  | .mk rc w b, h => by
    rw [CQ_Wf_mk] at h; rw [CQ_yield_mk]
    exact .append (Cln.clause (Cln.cons (NC.kw _) (Cln.flag (Cln.one (NC.kw _)))) (CNamed.wclns w h.2.1)) (CQN.wcln b h.2.2)
theorem CNamed.wclns : ∀ es : List CNamed, CNamed.Wfs es → ClnAll (CNamed.yields es)
  | [], _ => by rw [CNamed_yields_nil]; exact ClnAll.nil
  | .mk n cols q :: es, h => by
    rw [CNamed_Wfs_cons] at h; rw [CNamed_yields_cons]
    exact ClnAll.cons (Cln.cons (NC.ident h.1) (.append (Cln.columnsI h.2.1) (Cln.cons (NC.kw _) (Cln.parens (CQ.wcln q h.2.2.1)))))
      (CNamed.wclns es h.2.2.2)
theorem CQN.wcln : ∀ q : CQN, q.Wf → Cln q.yield
  | .mk t ob off lim, h => by
    rw [CQN_Wf_mk] at h; rw [CQN_yield_mk]
    exact .append (CQT.wcln t h.1) (.append (Cln.order (CSort.wclns ob h.2.1)) (.append (Cln.offsetW h.2.2.1) (Cln.limitW h.2.2.2)))
theorem CQT.wcln : ∀ q : CQT, q.Wf → Cln q.yield
  | .set op q l r, h => by
    rw [CQT_Wf_set] at h; rw [CQT_yield_set]
    exact .append (CQT.wcln l h.2.2.1) (Cln.cons (NC.kof h.1) (.append (Cln.optTok (fun _ => NC.kof) h.2.1) (CQT.wcln r h.2.2.2.1)))
  | .spec q items fr wh gq gs hv ws, h => by
    rw [CQT_Wf_spec] at h; rw [CQT_yield_spec]
    obtain ⟨h1, _, h3, h4, h5, h6, _, h8, h9, h10⟩ := h
    exact Cln.cons (NC.kw _) (.append (Cln.optTok (fun _ => NC.kof) h1) (.append (Cln.commas (CItem.wclns items h3))
      (.append (Cln.clause (Cln.one (NC.kw _)) (CR.wclns fr h4)) (.append (Cln.optPart (Cln.one (NC.kw _)) (CE.wclnOpt wh h5))
      (.append (Cln.clause (Cln.cons (NC.kw _) (Cln.cons (NC.kw _) (Cln.optTok (fun _ => NC.kof) h6))) (CGrp.wclns gs h8))
      (.append (Cln.optPart (Cln.one (NC.kw _)) (CE.wclnOpt hv h9)) (Cln.clause (Cln.one (NC.kw _)) (CWinDef.wclns ws h10))))))))
  | .table n, h => by
    rw [CQT_Wf_table] at h; rw [CQT_yield_table]; exact Cln.cons (NC.kw _) (Cln.qnameI h.2)
  | .values es, h => by
    rw [CQT_Wf_values] at h; rw [CQT_yield_values]; exact Cln.cons (NC.kw _) (Cln.commas (CE.wclns es h.2))
  | .sub q, h => by rw [CQT_Wf_sub] at h; rw [CQT_yield_sub]; exact Cln.parens (CQN.wcln q h)
theorem CR.wcln : ∀ r : CR, r.Wf → Cln r.yield
  | .cross l r, h => by
    rw [CR_Wf_cross] at h; rw [CR_yield_cross]
    exact (CR.wcln l h.1).append (Cln.cons (NC.kw _) (Cln.cons (NC.kw _) (CR.wcln r h.2.1)))
  | .join l t r c, h => by
    rw [CR_Wf_join] at h; rw [CR_yield_join]
    exact (CR.wcln l h.1).append ((Cln.join t).append ((CR.wcln r h.2.1).append (CCrit.wcln c h.2.2)))
  | .natural l t r, h => by
    rw [CR_Wf_natural] at h; rw [CR_yield_natural]
    exact (CR.wcln l h.1).append (Cln.cons (NC.kw _) ((Cln.join t).append (CR.wcln r h.2.1)))
  | .sample r t e, h => by
    rw [CR_Wf_sample] at h; rw [CR_yield_sample]
    exact (CR.wcln r h.1).append (Cln.cons (NC.kw _) (Cln.cons (NC.kof h.2.2.1) (Cln.parens (CE.wcln e h.2.2.2))))
  | .alias r b n cols, h => by
    rw [CR_Wf_alias] at h; rw [CR_yield_alias]
    exact (CR.wcln r h.1).append (.append (.append (Cln.flag (Cln.one (NC.kw _))) (Cln.one (NC.ident h.2.2.1))) (Cln.columnsI h.2.2.2))
  | .table n, h => by rw [CR_Wf_table] at h; rw [CR_yield_table]; exact Cln.qnameI h.2
  | .sub q, h => by rw [CR_Wf_sub] at h; rw [CR_yield_sub]; exact Cln.parens (CQ.wcln q h)
  | .unnest es o, h => by
    rw [CR_Wf_unnest] at h; rw [CR_yield_unnest]
    exact Cln.cons (NC.kw _) (.append (Cln.parens (Cln.commas (CE.wclns es h.2))) (Cln.flag (Cln.cons (NC.kw _) (Cln.one (NC.kw _)))))
  | .lateral q, h => by
    rw [CR_Wf_lateral] at h; rw [CR_yield_lateral]; exact Cln.cons (NC.kw _) (Cln.parens (CQ.wcln q h))
  | .paren r, h => by rw [CR_Wf_paren] at h; rw [CR_yield_paren]; exact Cln.parens (CR.wcln r h)
theorem CR.wclns : ∀ es : List CR, CR.Wfs es → ClnAll (CR.yields es)
  | [], _ => by rw [CR_yields_nil]; exact ClnAll.nil
  | e :: es, h => by
    rw [CR_Wfs_cons] at h; rw [CR_yields_cons]; exact ClnAll.cons (CR.wcln e h.1) (CR.wclns es h.2)
theorem CCrit.wcln : ∀ c : CCrit, c.Wf → Cln c.yield
  | .on e, h => by rw [CCrit_Wf_on] at h; rw [CCrit_yield_on]; exact Cln.cons (NC.kw _) (CE.wcln e h)
  | .using cols, h => by
    rw [CCrit_Wf_using] at h; rw [CCrit_yield_using]; exact Cln.cons (NC.kw _) (Cln.columnsI h.2)
end

end Treeno
