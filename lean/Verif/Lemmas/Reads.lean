import Verif.Lemmas.YieldEqs
import Verif.Lemmas.WfEqs
import Verif.Lemmas.TypeSound
import Verif.Parser
/-!
# What the readers of single tokens and names consume
-/
set_option linter.unusedSimpArgs false
set_option linter.unnecessarySimpa false
namespace Treeno
open Spec

theorem upperC_upperC (c : Char) : upperC (upperC c) = upperC c := by
  unfold upperC
  split
  · next h =>
    have e : (Char.ofNat (c.toNat - 32)).toNat = c.toNat - 32 := by
      have hv : Nat.isValidChar (c.toNat - 32) := by
        left; omega
      unfold Char.ofNat
      rw [dif_pos hv]
      rfl
    rw [e, if_neg (by omega)]
  · rfl

theorem upper_upper (s : Str) : upper (upper s) = upper s := by
  simp [upper, upperC_upperC]

theorem canon_kw {k : Str} {t : Tok} (h : K k t) : canon (kwT k) = canon t := by
  obtain ⟨h1, h2⟩ := h
  simp [canon, kwT, h1, h2]
  rw [← h2, upper_upper]

theorem canon_sym {k : Str} {t : Tok} (h : S k t) : canon (symT k) = canon t := by
  unfold S at h
  rw [h]; rfl

/-! ## Consuming tokens -/

theorem Spec.Reads.nil {ts : List Tok} : Reads [] ts ts := ⟨[], rfl, rfl⟩

theorem Spec.Reads.append {a b ts u v : List Tok} (h1 : Reads a ts u) (h2 : Reads b u v) : Reads (a ++ b) ts v := by
  obtain ⟨x, rfl, hx⟩ := h1
  obtain ⟨y, rfl, hy⟩ := h2
  exact ⟨x ++ y, by simp, by simp [hx, hy]⟩

theorem Spec.Reads.one {t t' : Tok} {ts : List Tok} (h : canon t' = canon t) : Reads [t'] (t :: ts) ts :=
  ⟨[t], rfl, by simp [h]⟩

theorem Spec.Reads.tok {t : Tok} {ts : List Tok} : Reads [t] (t :: ts) ts := Reads.one rfl

theorem Spec.Reads.cons {t t' : Tok} {b ts v : List Tok} (h : canon t' = canon t) (h2 : Reads b ts v) :
    Reads (t' :: b) (t :: ts) v := (Reads.one h).append h2

theorem kw_reads {k : Str} {ts r : List Tok} (h : kw k ts = some r) : Reads [kwT k] ts r := by
  obtain ⟨t, ht, rfl⟩ := kw_some h
  exact Reads.one (canon_kw ht)

theorem sym_reads {k : Str} {ts r : List Tok} (h : sym k ts = some r) : Reads [symT k] ts r := by
  obtain ⟨t, ht, rfl⟩ := sym_some h
  exact Reads.one (canon_sym ht)

theorem nextSym_reads {k : Str} {ts : List Tok} (h : nextSym k ts = true) : Reads [symT k] ts (ts.drop 1) := by
  obtain ⟨t, ht, e⟩ := nextSym_true h
  rw [e]; exact Reads.one (canon_sym ht)

theorem nextKw_reads {k : Str} {ts : List Tok} (h : nextKw k ts = true) : Reads [kwT k] ts (ts.drop 1) := by
  obtain ⟨t, ht, e⟩ := nextKw_true h
  rw [e]; exact Reads.one (canon_kw ht)

theorem pIdent_reads {ts : List Tok} {x} (h : pIdent ts = some x) : Ident x.1 ∧ Reads [x.1] ts x.2 := by
  obtain ⟨h1, rfl⟩ := pIdent_some h
  exact ⟨h1, Reads.tok⟩

theorem pKind_reads {k : Kind} {ts : List Tok} {x} (h : pKind k ts = some x) :
    x.1.kind = k ∧ Reads [x.1] ts x.2 := by
  obtain ⟨h1, rfl⟩ := pKind_some h
  exact ⟨h1, Reads.tok⟩

theorem pIvField_reads {ts : List Tok} {x} (h : pIvField ts = some x) : IvField x.1 ∧ Reads [x.1] ts x.2 := by
  obtain ⟨h1, rfl⟩ := pIvField_some h
  exact ⟨h1, Reads.tok⟩

theorem tokIf_reads {f : Tok → Bool} {ts : List Tok} {x} (h : tokIf f ts = some x) :
    f x.1 = true ∧ Reads [x.1] ts x.2 := by
  cases ts with
  | nil => simp [tokIf] at h
  | cons t ts =>
    simp only [tokIf] at h
    split at h
    · next hc => cases h; exact ⟨hc, Reads.tok⟩
    · simp at h

theorem optTok_reads (f : Tok → Bool) (ts : List Tok) :
    (∀ t, (optTok f ts).1 = some t → f t = true) ∧ Reads (optTok f ts).1.toList ts (optTok f ts).2 := by
  cases ts with
  | nil => exact ⟨by simp [optTok], Reads.nil⟩
  | cons t ts =>
    simp only [optTok]
    split
    · next hc => exact ⟨by rintro _ ⟨rfl⟩; exact hc, Reads.tok⟩
    · exact ⟨by simp, Reads.nil⟩

theorem optKw_reads (k : Str) (ts : List Tok) : Reads (flag (optKw k ts).1 [kwT k]) ts (optKw k ts).2 := by
  cases ts with
  | nil => exact Reads.nil
  | cons t ts =>
    simp only [optKw]
    split
    · next hc => exact Reads.one (canon_kw (isKw_K hc))
    · exact Reads.nil

theorem next2_true {f g : Tok → Bool} {ts : List Tok} (h : next2 f g ts = true) :
    ∃ a b, f a = true ∧ g b = true ∧ ts = a :: b :: ts.drop 2 := by
  match ts, h with
  | t :: u :: ts, h =>
    simp only [next2, Bool.and_eq_true] at h
    exact ⟨t, u, h.1, h.2, rfl⟩

theorem nextIs_true {f : Tok → Bool} {ts : List Tok} (h : nextIs f ts = true) :
    ∃ a, f a = true ∧ ts = a :: ts.drop 1 := by
  match ts, h with
  | t :: ts, h => exact ⟨t, h, rfl⟩

theorem next2_kk {a b : Str} {ts : List Tok} (h : next2 (Tok.isKw a) (Tok.isKw b) ts = true) :
    Reads [kwT a, kwT b] ts (ts.drop 2) := by
  obtain ⟨x, y, hx, hy, e⟩ := next2_true h
  rw [e]; exact Reads.cons (canon_kw (isKw_K hx)) (Reads.one (canon_kw (isKw_K hy)))

theorem next2_ks {a b : Str} {ts : List Tok} (h : next2 (Tok.isKw a) (Tok.isSym b) ts = true) :
    Reads [kwT a, symT b] ts (ts.drop 2) := by
  obtain ⟨x, y, hx, hy, e⟩ := next2_true h
  rw [e]; exact Reads.cons (canon_kw (isKw_K hx)) (Reads.one (canon_sym (isSym_S hy)))

theorem next2_ss {a b : Str} {ts : List Tok} (h : next2 (Tok.isSym a) (Tok.isSym b) ts = true) :
    Reads [symT a, symT b] ts (ts.drop 2) := by
  obtain ⟨x, y, hx, hy, e⟩ := next2_true h
  rw [e]; exact Reads.cons (canon_sym (isSym_S hx)) (Reads.one (canon_sym (isSym_S hy)))

theorem next2_k1 {a : Str} {g : Tok → Bool} {ts : List Tok} (h : next2 (Tok.isKw a) g ts = true) :
    Reads [kwT a] ts (ts.drop 1) := by
  obtain ⟨x, y, hx, hy, e⟩ := next2_true h
  rw [e]; exact Reads.one (canon_kw (isKw_K hx))

theorem next2_s1 {a : Str} {g : Tok → Bool} {ts : List Tok} (h : next2 (Tok.isSym a) g ts = true) :
    Reads [symT a] ts (ts.drop 1) := by
  obtain ⟨x, y, hx, hy, e⟩ := next2_true h
  rw [e]; exact Reads.one (canon_sym (isSym_S hx))

/-! ## Classes of tokens -/

theorem isKwOf_Kof {ks : List Str} {t : Tok} (h : t.isKwOf ks = true) : Kof ks t := by
  simpa [Tok.isKwOf, Kof] using h

theorem isSymOf_Sof {ks : List Str} {t : Tok} (h : t.isSymOf ks = true) : Sof ks t := by
  simpa [Tok.isSymOf, Sof] using h

theorem isNum_Num {t : Tok} (h : t.isNum = true) : Num t := by
  simpa [Tok.isNum, Num, or_assoc] using h

theorem isCount_Count {t : Tok} (h : t.isCount = true) : Count t := by
  simp only [Tok.isCount, Bool.or_eq_true, beq_iff_eq] at h
  exact h.imp id isSym_S

theorem Spec.Opt.imp {p q : Tok → Prop} {o : Option Tok} (h : Opt p o) (hpq : ∀ t, p t → q t) : Opt q o :=
  fun t ht => hpq t (h t ht)

theorem Spec.Opt.none {p : Tok → Prop} : Opt p none := fun _ h => by cases h
theorem Spec.Opt.some {p : Tok → Prop} {t : Tok} (h : p t) : Opt p (some t) := fun _ e => by cases e; exact h

theorem optTok_quant (ts : List Tok) : Opt Quant (optTok Tok.isQuant ts).1 :=
  fun t h => isKwOf_Kof ((optTok_reads Tok.isQuant ts).1 t h)

/-! ## Names and strings -/

theorem sepBy_cons2 (s : Tok) (x y : List Tok) (r : List (List Tok)) :
    sepBy s (x :: y :: r) = x ++ s :: sepBy s (y :: r) := rfl

theorem sepBy_cons (s : Tok) (x : List Tok) {r : List (List Tok)} (h : r ≠ []) :
    sepBy s (x :: r) = x ++ s :: sepBy s r := by
  cases r with
  | nil => exact absurd rfl h
  | cons y r => rfl

theorem pIdents_reads : ∀ (ts : List Tok) {x}, pIdents ts = some x →
    x.1 ≠ [] ∧ Idents x.1 ∧ Reads (commas (x.1.map fun t => [t])) ts x.2
  | [], x, h => by simp [pIdents] at h
  | [t], x, h => by
    simp only [pIdents] at h
    split at h
    · next hc =>
      cases h
      exact ⟨by simp, by intro u hu; simp at hu; rw [hu]; exact isIdent_Ident hc, Reads.tok⟩
    · simp at h
  | t :: u :: ts, x, h => by
    simp only [pIdents] at h
    split at h
    · next hc =>
      split at h
      · next hu =>
        simp only [Option.map_eq_some_iff] at h
        obtain ⟨y, hy, rfl⟩ := h
        obtain ⟨h1, h2, h3⟩ := pIdents_reads ts hy
        refine ⟨by simp, ?_, ?_⟩
        · intro v hv
          simp only [List.mem_cons] at hv
          rcases hv with rfl | hv
          · exact isIdent_Ident hc
          · exact h2 v hv
        · unfold commas at h3 ⊢
          rw [List.map_cons, sepBy_cons _ _ (by simpa using h1)]
          exact Reads.cons rfl (Reads.cons (canon_sym (isSym_S hu)) h3)
      · cases h
        exact ⟨by simp, by intro u hu; simp at hu; rw [hu]; exact isIdent_Ident hc, Reads.tok⟩
    · simp at h

theorem pQName_reads : ∀ (ts : List Tok) {x}, pQName ts = some x →
    x.1 ≠ [] ∧ Idents x.1 ∧ Reads (qname x.1) ts x.2
  | [], x, h => by simp [pQName] at h
  | [t], x, h => by
    simp only [pQName] at h
    split at h
    · next hc =>
      cases h
      exact ⟨by simp, by intro u hu; simp at hu; rw [hu]; exact isIdent_Ident hc, Reads.tok⟩
    · simp at h
  | t :: u :: ts, x, h => by
    simp only [pQName] at h
    split at h
    · next hc =>
      split at h
      · next hu =>
        simp only [Bool.and_eq_true] at hu
        simp only [Option.map_eq_some_iff] at h
        obtain ⟨y, hy, rfl⟩ := h
        obtain ⟨h1, h2, h3⟩ := pQName_reads ts hy
        refine ⟨by simp, ?_, ?_⟩
        · intro v hv
          simp only [List.mem_cons] at hv
          rcases hv with rfl | hv
          · exact isIdent_Ident hc
          · exact h2 v hv
        · unfold qname at h3 ⊢
          rw [List.map_cons, sepBy_cons _ _ (by simpa using h1)]
          exact Reads.cons rfl (Reads.cons (canon_sym (isSym_S hu.1)) h3)
      · cases h
        exact ⟨by simp, by intro u hu; simp at hu; rw [hu]; exact isIdent_Ident hc, Reads.tok⟩
    · simp at h

theorem consHead_qname (t : Tok) (u : Tok) (hu : canon (symT (c% ".")) = canon u) : ∀ (ns : List (List Tok)), ns ≠ [] → (∀ n ∈ ns, n ≠ []) → ∀ {ts ts' : List Tok},
    Reads (commas (ns.map qname)) ts ts' → Reads (commas ((consHead t ns).map qname)) (t :: u :: ts) ts'
  | [], h, _, _, _, _ => absurd rfl h
  | [] :: _, _, h, _, _, _ => absurd rfl (h [] (by simp))
  | (x :: n) :: ns, _, _, ts, ts', h => by
    have e : commas ((consHead t ((x :: n) :: ns)).map qname) = t :: symT (c% ".") :: commas (((x :: n) :: ns).map qname) := by
      cases ns with
      | nil => rfl
      | cons m ms => rfl
    rw [e]
    exact Reads.cons rfl (Reads.cons hu h)

theorem pQNames_reads : ∀ (ts : List Tok) {x}, pQNames ts = some x →
    x.1 ≠ [] ∧ (∀ n ∈ x.1, n ≠ [] ∧ Idents n) ∧ Reads (commas (x.1.map qname)) ts x.2
  | [], x, h => by simp [pQNames] at h
  | [t], x, h => by
    simp only [pQNames] at h
    split at h
    · next hc =>
      cases h
      refine ⟨by simp, ?_, Reads.tok⟩
      intro n hn; simp at hn; rw [hn]
      exact ⟨by simp, by intro u hu; simp at hu; rw [hu]; exact isIdent_Ident hc⟩
    · simp at h
  | t :: u :: ts, x, h => by
    simp only [pQNames] at h
    split at h
    · next hc =>
      have ht : Idents [t] := by intro u hu; simp at hu; rw [hu]; exact isIdent_Ident hc
      split at h
      · next hu =>
        simp only [Option.map_eq_some_iff] at h
        obtain ⟨y, hy, rfl⟩ := h
        obtain ⟨h1, h2, h3⟩ := pQNames_reads ts hy
        refine ⟨?_, ?_, consHead_qname t u (canon_sym (isSym_S hu)) _ h1 (fun n hn => (h2 n hn).1) h3⟩
        · cases y.1 <;> simp [consHead]
        · obtain ⟨ns, v⟩ := y
          cases ns with
          | nil => exact absurd rfl h1
          | cons m ms =>
            intro n hn
            simp only [consHead, List.mem_cons] at hn
            rcases hn with rfl | hn
            · refine ⟨by simp, ?_⟩
              intro w hw
              simp only [List.mem_cons] at hw
              rcases hw with rfl | hw
              · exact isIdent_Ident hc
              · exact (h2 m (by simp)).2 w hw
            · exact h2 n (by simp [hn])
      split at h
      · next hu =>
        simp only [Option.map_eq_some_iff] at h
        obtain ⟨y, hy, rfl⟩ := h
        obtain ⟨h1, h2, h3⟩ := pQNames_reads ts hy
        refine ⟨by simp, ?_, ?_⟩
        · intro n hn
          simp only [List.mem_cons] at hn
          rcases hn with rfl | hn
          · exact ⟨by simp, ht⟩
          · exact h2 n hn
        · unfold commas at h3 ⊢
          rw [List.map_cons, sepBy_cons _ _ (by simpa using h1)]
          exact Reads.cons rfl (Reads.cons (canon_sym (isSym_S hu)) h3)
      · cases h
        refine ⟨by simp, ?_, Reads.tok⟩
        intro n hn; simp at hn; rw [hn]
        exact ⟨by simp, ht⟩
    · simp at h

theorem pColumns_reads {ts : List Tok} {x} (h : pColumns ts = some x) :
    x.1 ≠ [] ∧ Idents x.1 ∧ Reads (columns x.1) ts x.2 := by
  simp only [pColumns, Option.bind_eq_bind, Option.bind_eq_some_iff] at h
  obtain ⟨u, h1, p, h2, v, h3, h4⟩ := h
  cases h4
  obtain ⟨a, b, c⟩ := pIdents_reads _ h2
  refine ⟨a, b, ?_⟩
  have : columns p.1 = [symT (c% "(")] ++ (commas (p.1.map fun t => [t]) ++ [symT (c% ")")]) := by
    unfold columns inParens
    rw [if_neg (by simpa using a)]
    rfl
  rw [this]
  exact (sym_reads h1).append (c.append (sym_reads h3))

theorem optColumns_reads {ts : List Tok} {x} (h : optColumns ts = some x) :
    Idents x.1 ∧ Reads (columns x.1) ts x.2 := by
  unfold optColumns at h
  split at h
  · exact (pColumns_reads h).2
  · cases h
    exact ⟨by intro t ht; simp at ht, Reads.nil⟩

theorem pString_reads {ts : List Tok} {x} (h : pString ts = some x) : x.1.Wf ∧ Reads x.1.yield ts x.2 := by
  cases ts with
  | nil => simp [pString] at h
  | cons t ts =>
    simp only [pString] at h
    split at h
    · next hc => cases h; exact ⟨show t.kind = .str by simpa using hc, Reads.tok⟩
    split at h
    · next hc =>
      split at h
      · next h2 =>
        cases h
        obtain ⟨a, b, ha, hb, e⟩ := next2_true h2
        rw [e]
        refine ⟨⟨by simpa using hc, Opt.some (by simpa using hb)⟩, ?_⟩
        exact Reads.cons rfl (Reads.cons (canon_kw (isKw_K ha)) Reads.tok)
      · cases h
        exact ⟨⟨by simpa using hc, Opt.none⟩, Reads.tok⟩
    · simp at h

theorem optString_reads {ts : List Tok} {x} (h : optString ts = some x) :
    OptStr x.1 ∧ Reads (optPart [] (x.1.map CStr.yield)) ts x.2 := by
  unfold optString at h
  split at h
  · simp only [Option.bind_eq_bind, Option.bind_eq_some_iff] at h
    obtain ⟨p, h1, h2⟩ := h
    cases h2
    obtain ⟨a, b⟩ := pString_reads h1
    exact ⟨by rintro _ ⟨rfl⟩; exact a, b⟩
  · cases h
    exact ⟨(by rintro _ h; cases h), Reads.nil⟩

theorem optSep_reads {ts : List Tok} {x} (h : optSep ts = some x) :
    OptStr x.1 ∧ Reads (optPart [symT (c% ",")] (x.1.map CStr.yield)) ts x.2 := by
  unfold optSep at h
  split at h
  · cases h
    exact ⟨(by rintro _ h; cases h), Reads.nil⟩
  · next hk =>
    simp only [Option.bind_eq_bind, Option.bind_eq_some_iff] at h
    obtain ⟨p, h1, h2⟩ := h
    cases h2
    obtain ⟨a, b⟩ := pString_reads h1
    exact ⟨by rintro _ ⟨rfl⟩; exact a, (sym_reads hk).append b⟩

theorem pCount_reads {ts : List Tok} {x} (h : pCount ts = some x) :
    Reads [kwT (if x.1 then c% "WITH" else c% "WITHOUT"), kwT (c% "COUNT")] ts x.2 := by
  simp only [pCount, Option.bind_eq_bind, Option.bind_eq_some_iff] at h
  obtain ⟨p, h1, u, h2, h3⟩ := h
  cases h3
  obtain ⟨a, b⟩ := tokIf_reads h1
  obtain ⟨a1, a2⟩ := isKwOf_Kof a
  obtain ⟨used, rfl, hu⟩ := b
  have e : canon p.1 = canon (kwT (if p.1.isKw (c% "WITH") then c% "WITH" else c% "WITHOUT")) := by
    simp only [List.mem_cons, List.not_mem_nil, or_false] at a2
    cases hb : p.1.isKw (c% "WITH") with
    | true => exact (canon_kw (isKw_K hb)).symm
    | false =>
      rcases a2 with a2 | a2
      · simp [Tok.isKw, a1, a2] at hb
      · exact (canon_kw ⟨a1, a2⟩).symm
  have r1 : Reads [kwT (if p.1.isKw (c% "WITH") then c% "WITH" else c% "WITHOUT")] (used ++ p.2) p.2 :=
    ⟨used, rfl, by rw [hu]; simp [e]⟩
  exact r1.append (kw_reads h2)

theorem optOverflow_reads {ts : List Tok} {x} (h : optOverflow ts = some x) :
    (∀ o, x.1 = some o → o.Wf) ∧ Reads (optPart [] (x.1.map COverflow.yield)) ts x.2 := by
  unfold optOverflow at h
  split at h
  · cases h
    exact ⟨(by rintro _ h; cases h), Reads.nil⟩
  · next hk =>
    simp only [Option.bind_eq_bind, Option.bind_eq_some_iff] at h
    obtain ⟨u, h1, h2⟩ := h
    split at h2
    · next hk2 =>
      cases h2
      exact ⟨by rintro _ ⟨rfl⟩; trivial, (kw_reads hk).append ((kw_reads h1).append (kw_reads hk2))⟩
    · simp only [Option.bind_eq_some_iff] at h2
      obtain ⟨v, h3, s, h4, c, h5, h6⟩ := h2
      cases h6
      obtain ⟨a, b⟩ := optString_reads h4
      refine ⟨by rintro _ ⟨rfl⟩; exact a, ?_⟩
      have := (kw_reads hk).append ((kw_reads h1).append ((kw_reads h3).append (b.append (pCount_reads h5))))
      simpa [optPart, COverflow.yield] using this

theorem pIvTo_reads {ts : List Tok} {x} (h : pIvTo ts = some x) :
    Opt IvField x.1 ∧ Reads (optPart [kwT (c% "TO")] (x.1.map fun x => [x])) ts x.2 := by
  unfold pIvTo at h
  split at h
  · cases h
    exact ⟨Opt.none, Reads.nil⟩
  · next hk =>
    simp only [Option.bind_eq_bind, Option.bind_eq_some_iff] at h
    obtain ⟨p, h1, h2⟩ := h
    cases h2
    obtain ⟨a, b⟩ := pIvField_reads h1
    exact ⟨Opt.some a, (kw_reads hk).append b⟩

theorem optPrec_reads {ts : List Tok} {x} (h : optPrec ts = some x) :
    Opt (fun t => t.kind = .int) x.1 ∧
      Reads (optIn [symT (c% "(")] [symT (c% ")")] (x.1.map fun x => [x])) ts x.2 := by
  unfold optPrec at h
  split at h
  · cases h
    exact ⟨Opt.none, Reads.nil⟩
  · next hk =>
    simp only [Option.bind_eq_bind, Option.bind_eq_some_iff] at h
    obtain ⟨p, h1, v, h2, h3⟩ := h
    cases h3
    obtain ⟨a, b⟩ := pKind_reads h1
    exact ⟨Opt.some a, (sym_reads hk).append (b.append (sym_reads h2))⟩

theorem optForm_reads {ts : List Tok} {x} (h : optForm ts = some x) :
    Opt (Kof [c% "NFD", c% "NFC", c% "NFKD", c% "NFKC"]) x.1 ∧
      Reads (optPart [symT (c% ",")] (x.1.map fun x => [x])) ts x.2 := by
  unfold optForm at h
  split at h
  · cases h
    exact ⟨Opt.none, Reads.nil⟩
  · next hk =>
    simp only [Option.bind_eq_bind, Option.bind_eq_some_iff] at h
    obtain ⟨p, h1, h2⟩ := h
    cases h2
    obtain ⟨a, b⟩ := tokIf_reads h1
    exact ⟨Opt.some (isKwOf_Kof a), (sym_reads hk).append b⟩

theorem optNulls_reads (ts : List Tok) : Reads (nullsPart (optNulls ts).1) ts (optNulls ts).2 := by
  unfold optNulls
  split
  · next h => exact next2_kk h
  split
  · next h => exact next2_kk h
  · exact Reads.nil

theorem optNullOrder_reads {ts : List Tok} {x} (h : optNullOrder ts = some x) :
    Opt (Kof [c% "FIRST", c% "LAST"]) x.1 ∧
      Reads (optPart [kwT (c% "NULLS")] (x.1.map fun x => [x])) ts x.2 := by
  unfold optNullOrder at h
  split at h
  · cases h
    exact ⟨Opt.none, Reads.nil⟩
  · next hk =>
    simp only [Option.bind_eq_bind, Option.bind_eq_some_iff] at h
    obtain ⟨p, h1, h2⟩ := h
    cases h2
    obtain ⟨a, b⟩ := tokIf_reads h1
    exact ⟨Opt.some (isKwOf_Kof a), (kw_reads hk).append b⟩

theorem optOffset_reads {ts : List Tok} {x} (h : optOffset ts = some x) :
    OptOffset x.1 ∧ Reads (offsetPart x.1) ts x.2 := by
  unfold optOffset at h
  split at h
  · cases h
    exact ⟨(by rintro _ h; cases h), Reads.nil⟩
  · next hk =>
    simp only [Option.bind_eq_bind, Option.bind_eq_some_iff] at h
    obtain ⟨p, h1, h2⟩ := h
    cases h2
    obtain ⟨a, b⟩ := tokIf_reads h1
    obtain ⟨c, d⟩ := optTok_reads Tok.isRows p.2
    refine ⟨?_, (kw_reads hk).append (b.append d)⟩
    rintro _ ⟨rfl⟩
    exact ⟨isCount_Count a, fun t ht => isKwOf_Kof (c t ht)⟩

theorem pTies_reads {ts : List Tok} {x} (h : pTies ts = some x) :
    Reads (if x.1 then [kwT (c% "WITH"), kwT (c% "TIES")] else [kwT (c% "ONLY")]) ts x.2 := by
  unfold pTies at h
  split at h
  · next hk => cases h; exact kw_reads hk
  · simp only [Option.bind_eq_bind, Option.bind_eq_some_iff] at h
    obtain ⟨u, h1, v, h2, h3⟩ := h
    cases h3
    exact (kw_reads h1).append (kw_reads h2)

theorem optLimit_reads {ts : List Tok} {x} (h : optLimit ts = some x) : x.1.Wf ∧ Reads x.1.yield ts x.2 := by
  unfold optLimit at h
  split at h
  · next hk =>
    simp only [Option.bind_eq_bind, Option.bind_eq_some_iff] at h
    obtain ⟨p, h1, h2⟩ := h
    cases h2
    obtain ⟨a, b⟩ := tokIf_reads h1
    simp only [Bool.or_eq_true] at a
    exact ⟨a.imp isCount_Count isKw_K, (kw_reads hk).append b⟩
  · split at h
    · cases h; exact ⟨trivial, Reads.nil⟩
    · next hk =>
      simp only [Option.bind_eq_bind, Option.bind_eq_some_iff] at h
      obtain ⟨f, h1, w, h2, t, h3, h4⟩ := h
      cases h4
      obtain ⟨a, b⟩ := tokIf_reads h1
      obtain ⟨c, d⟩ := optTok_reads Tok.isCount f.2
      obtain ⟨e, g⟩ := tokIf_reads h2
      refine ⟨⟨isKwOf_Kof a, fun t ht => isCount_Count (c t ht), isKwOf_Kof e⟩, ?_⟩
      have := (kw_reads hk).append (b.append (d.append (g.append (pTies_reads h3))))
      simpa [CLimit.yield] using this

theorem optAlias_reads {ts : List Tok} {x} (h : optAlias ts = some x) :
    Opt Ident x.1.2 ∧ (x.1.1 = true → x.1.2.isSome) ∧ Reads (aliasPart x.1.1 x.1.2) ts x.2 := by
  unfold optAlias at h
  split at h
  · next hk =>
    simp only [Option.bind_eq_bind, Option.bind_eq_some_iff] at h
    obtain ⟨p, h1, h2⟩ := h
    cases h2
    obtain ⟨a, b⟩ := pIdent_reads h1
    exact ⟨Opt.some a, fun _ => rfl, (kw_reads hk).append b⟩
  · cases h
    obtain ⟨a, b⟩ := optTok_reads Tok.isAlias ts
    refine ⟨fun t ht => ?_, (fun h => by cases h), b⟩
    have := a t ht
    simp only [Tok.isAlias, Bool.and_eq_true] at this
    exact isIdent_Ident this.1

theorem optAsColumns_reads {ts : List Tok} {x} (h : optAsColumns ts = some x) :
    Idents x.1 ∧ Reads (flag (!x.1.isEmpty) [kwT (c% "AS")] ++ columns x.1) ts x.2 := by
  unfold optAsColumns at h
  split at h
  · cases h
    exact ⟨by intro t ht; simp at ht, Reads.nil⟩
  · next hk =>
    obtain ⟨a, b, c⟩ := pColumns_reads h
    refine ⟨b, ?_⟩
    have : (!x.1.isEmpty) = true := by simpa using a
    rw [this]
    exact (kw_reads hk).append c

theorem pJoinType_reads {ts : List Tok} {x} (h : pJoinType ts = some x) : Reads x.1.yield ts x.2 := by
  unfold pJoinType at h
  split at h
  · next hk => cases h; exact kw_reads hk
  split at h
  · next hk =>
    simp only [Option.bind_eq_bind, Option.bind_eq_some_iff] at h
    obtain ⟨u, h1, h2⟩ := h
    cases h2
    exact (kw_reads hk).append (kw_reads h1)
  split at h
  · next hk =>
    simp only [Option.bind_eq_bind, Option.bind_eq_some_iff] at h
    obtain ⟨u, h1, h2⟩ := h
    cases h2
    exact (kw_reads hk).append ((optKw_reads _ _).append (kw_reads h1))
  split at h
  · next hk =>
    simp only [Option.bind_eq_bind, Option.bind_eq_some_iff] at h
    obtain ⟨u, h1, h2⟩ := h
    cases h2
    exact (kw_reads hk).append ((optKw_reads _ _).append (kw_reads h1))
  · simp only [Option.bind_eq_bind, Option.bind_eq_some_iff] at h
    obtain ⟨v, hk, u, h1, h2⟩ := h
    cases h2
    exact (kw_reads hk).append ((optKw_reads _ _).append (kw_reads h1))

theorem optOrdinality_reads (ts : List Tok) :
    Reads (flag (optOrdinality ts).1 [kwT (c% "WITH"), kwT (c% "ORDINALITY")]) ts (optOrdinality ts).2 := by
  unfold optOrdinality
  split
  · next h => exact next2_kk h
  · exact Reads.nil

theorem lamHead_reads {ts : List Tok} {x} (h : lamHead ts = some x) :
    Idents x.1 ∧ Reads (commas (x.1.map fun t => [t]) ++ [symT (c% ")"), symT (c% "->")]) ts x.2 := by
  unfold lamHead at h
  split at h
  · next hc => cases h; exact ⟨by intro t ht; simp at ht, next2_ss hc⟩
  split at h
  · next hp =>
    split at h
    · next hc =>
      cases h
      obtain ⟨_, a, b⟩ := pIdents_reads _ hp
      exact ⟨a, b.append (next2_ss hc)⟩
    · simp at h
  · simp at h

theorem pType_reads {ts : List Tok} {x} (h : pType ts = some x) :
    GTy x.1 (ts.take (ts.length - x.2.length)) ∧ Reads (ts.take (ts.length - x.2.length)) ts x.2 := by
  obtain ⟨pre, hp, rfl⟩ := pType_sound h
  have : (pre ++ x.2).take ((pre ++ x.2).length - x.2.length) = pre := by
    rw [List.length_append, Nat.add_sub_cancel, List.take_left']; rfl
  rw [this]
  exact ⟨hp, ⟨pre, rfl, rfl⟩⟩

end Treeno
