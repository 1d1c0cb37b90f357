import Verif.Lemmas.Gaps
/-!
# Lexing text with other white space
-/
namespace Treeno
open Spec

/-- Two texts that differ in the white space characters, but have some in the same places. -/
inductive Al : Str → Str → Prop
  | nil : Al [] []
  | same {c s s'} : Al s s' → Al (c :: s) (c :: s')
  | ws {w w' s s'} : w ≠ [] → w' ≠ [] → (∀ c ∈ w, isWs c = true) → (∀ c ∈ w', isWs c = true) → Al s s' →
      Al (w ++ s) (w' ++ s')

theorem Al.symm {x y : Str} (h : Al x y) : Al y x := by
  induction h with
  | nil => exact .nil
  | same _ ih => exact .same ih
  | ws h1 h2 h3 h4 _ ih => exact .ws h2 h1 h4 h3 ih

theorem Al.prepend (t : Str) {x y : Str} (h : Al x y) : Al (t ++ x) (t ++ y) := by
  induction t with
  | nil => exact h
  | cons c t ih => exact .same ih

theorem Al.nil_inv {x : Str} (h : Al x []) : x = [] := by
  generalize e : ([] : Str) = y at h
  cases h with
  | nil => rfl
  | same => cases e
  | ws h1 h2 => exact absurd (List.append_eq_nil_iff.mp e.symm).1 h2

/-- Same start without white space. -/
theorem Al.pre {x y : Str} (h : Al x y) : ∀ {u v : Str}, u ++ v = y → (∀ c ∈ u, isWs c = false) → ∃ z, u ++ z = x := by
  induction h with
  | nil => intro u v e _; exact ⟨[], by rw [(List.append_eq_nil_iff.mp e).1]; rfl⟩
  | @same c s s' _ ih =>
    intro u v e hu
    cases u with
    | nil => exact ⟨_, rfl⟩
    | cons a u =>
      cases e
      obtain ⟨z, rfl⟩ := ih rfl fun c hc => hu c (List.mem_cons_of_mem _ hc)
      exact ⟨z, rfl⟩
  | @ws w w' s s' h1 h2 h3 h4 _ ih =>
    intro u v e hu
    cases u with
    | nil => exact ⟨_, rfl⟩
    | cons a u =>
      cases w' with
      | nil => exact absurd rfl h2
      | cons b w' =>
        injection e with e1 _
        have := h4 _ List.mem_cons_self
        rw [← e1, hu _ List.mem_cons_self] at this
        cases this

theorem Al.cons_inv {x y : Str} {c : Char} (h : Al x (c :: y)) (hc : isWs c = false) : ∃ x', x = c :: x' ∧ Al x' y := by
  generalize e : c :: y = z at h
  cases h with
  | nil => cases e
  | same h => cases e; exact ⟨_, rfl, h⟩
  | @ws w w' s s' h1 h2 h3 h4 _ =>
    cases w' with
    | nil => exact absurd rfl h2
    | cons b w' =>
      cases e
      have := h4 _ List.mem_cons_self
      rw [hc] at this
      cases this

theorem Al.snoc_inv {x y : Str} (h : Al x y) : ∀ {b : Str} {q : Char}, y = b ++ [q] → isWs q = false →
    ∃ b', x = b' ++ [q] ∧ Al b' b := by
  induction h with
  | nil => intro b q e; simp at e
  | @same c s s' h ih =>
    intro b q e hq
    cases b with
    | nil =>
      cases e
      cases h.nil_inv
      exact ⟨[], rfl, .nil⟩
    | cons a b =>
      cases e
      obtain ⟨b', rfl, hb⟩ := ih rfl hq
      exact ⟨c :: b', rfl, .same hb⟩
  | @ws w w' s s' h1 h2 h3 h4 h ih =>
    intro b q e hq
    rcases List.eq_nil_or_concat s' with rfl | ⟨z, l, e'⟩
    · rw [List.append_nil] at e
      have := h4 q (by rw [e]; simp)
      rw [hq] at this
      cases this
    · rw [List.concat_eq_append] at e'
      subst e'
      rw [← List.append_assoc] at e
      obtain ⟨e1, e2⟩ := List.append_inj' e rfl
      cases e2
      obtain ⟨b', rfl, hb⟩ := ih rfl hq
      exact ⟨w ++ b', by simp, e1 ▸ .ws h1 h2 h3 h4 hb⟩

/-- A start that ends in something else than white space. -/
theorem Al.split {x y : Str} (h : Al x y) : ∀ {u v : Str}, y = u ++ v → (∀ c z, u = z ++ [c] → isWs c = false) →
    ∃ u' v', x = u' ++ v' ∧ Al u' u := by
  induction h with
  | nil =>
    intro u v e _
    rw [(List.append_eq_nil_iff.mp e.symm).1]
    exact ⟨[], [], rfl, .nil⟩
  | @same c s s' _ ih =>
    intro u v e hu
    cases u with
    | nil => exact ⟨[], _, rfl, .nil⟩
    | cons a u =>
      cases e
      obtain ⟨u', v', rfl, h⟩ := ih rfl fun c z e => hu c (_ :: z) (by rw [e]; rfl)
      exact ⟨c :: u', v', rfl, .same h⟩
  | @ws w w' s s' h1 h2 h3 h4 _ ih =>
    intro u v e hu
    rcases List.append_eq_append_iff.mp e with ⟨z, rfl, e'⟩ | ⟨z, rfl, e'⟩
    · obtain ⟨u', v', rfl, h⟩ := ih e' fun c y e => hu c (w' ++ y) (by rw [e]; simp)
      exact ⟨w ++ u', v', by simp, .ws h1 h2 h3 h4 h⟩
    · rcases List.eq_nil_or_concat u with rfl | ⟨y, l, e2⟩
      · exact ⟨[], _, rfl, .nil⟩
      · rw [List.concat_eq_append] at e2
        subst e2
        have := h4 l (by simp)
        rw [hu l y rfl] at this
        cases this

theorem Al.mem {x y : Str} (h : Al x y) {c : Char} (hc : isWs c = false) (hm : c ∈ x) : c ∈ y := by
  induction h with
  | nil => exact hm
  | same _ ih =>
    rcases List.mem_cons.mp hm with rfl | hm
    · exact List.mem_cons_self
    · exact List.mem_cons_of_mem _ (ih hm)
  | ws h1 h2 h3 h4 _ ih =>
    rcases List.mem_append.mp hm with hm | hm
    · rw [h3 c hm] at hc; cases hc
    · exact List.mem_append_right _ (ih hm)

theorem qbody_ws {q : Char} (hq : isWs q = false) {w s : Str} (hw : ∀ c ∈ w, isWs c = true) :
    QBody q (w ++ s) ↔ QBody q s := by
  induction w with
  | nil => rfl
  | cons c w ih =>
    have hc : c ≠ q := by
      rintro rfl
      rw [hw c List.mem_cons_self] at hq
      cases hq
    have ih := ih fun d hd => hw d (List.mem_cons_of_mem _ hd)
    constructor
    · intro h; exact ih.mp (qbody_chr h hc)
    · intro h; exact .chr _ _ hc (ih.mpr h)

theorem Al.qbody {q : Char} (hq : isWs q = false) : ∀ (n : Nat) {x y : Str}, y.length ≤ n → Al x y → QBody q y → QBody q x
  | n, x, y, hn, h, hy => by
    cases h with
    | nil => exact .nil
    | @same c s s' h =>
      cases n with
      | zero => cases hn
      | succ n =>
        by_cases hc : c = q
        · subst hc
          cases s' with
          | nil =>
            cases hy with
            | chr _ _ hc => exact absurd rfl hc
          | cons d s'' =>
            obtain ⟨rfl, hy⟩ := qbody_pair hy
            obtain ⟨s0, rfl, h0⟩ := h.cons_inv hq
            exact .pair _ (Al.qbody hq n (by simp only [List.length_cons] at hn; omega) h0 hy)
        · exact .chr _ _ hc (Al.qbody hq n (by simpa using hn) h (qbody_chr hy hc))
    | @ws w w' s s' h1 h2 h3 h4 h =>
      cases n with
      | zero =>
        have : w' ++ s' = [] := List.eq_nil_of_length_eq_zero (Nat.le_zero.mp hn)
        exact absurd (List.append_eq_nil_iff.mp this).1 h2
      | succ n =>
        rw [qbody_ws hq h4] at hy
        rw [qbody_ws hq h3]
        refine Al.qbody hq n ?_ h hy
        have : 0 < w'.length := List.length_pos_iff.mpr h2
        rw [List.length_append] at hn
        omega

theorem infix_ws {w s : Str} (hw : ∀ c ∈ w, isWs c = true) (h : c% "*/" <:+: w ++ s) : c% "*/" <:+: s := by
  induction w with
  | nil => exact h
  | cons c w ih =>
    rw [List.cons_append, List.infix_cons_iff] at h
    rcases h with ⟨z, h⟩ | h
    · injection h with h1 _
      subst h1
      cases hw _ List.mem_cons_self
    · exact ih (fun d hd => hw d (List.mem_cons_of_mem _ hd)) h

theorem Al.closes {x y : Str} (h : Al x y) (hx : c% "*/" <:+: x) : c% "*/" <:+: y := by
  induction h with
  | nil => exact hx
  | @same c s s' h ih =>
    rw [List.infix_cons_iff] at hx
    rcases hx with ⟨z, hx⟩ | hx
    · cases hx
      obtain ⟨x', rfl, _⟩ := h.symm.cons_inv (c := '/') rfl
      exact ⟨[], x', rfl⟩
    · exact List.infix_cons_iff.mpr (.inr (ih hx))
  | ws h1 h2 h3 h4 _ ih =>
    obtain ⟨a, b, e⟩ := ih (infix_ws h3 hx)
    rename_i w w' s s' _
    exact ⟨w' ++ a, b, by rw [← e]; simp⟩

/-- A visible token stays the longest match when the white space after it changes. -/
theorem relaid_best {t : Tok} {r r' : Str} (hm : Matches t.kind t.text) (hv : t.visible = true)
    (hns : ∀ c x, t.text = c :: x → isWs c = false)
    (hb : ∀ k w rest, w ++ rest = t.text ++ r → Matches k w → w.length ≤ t.text.length) (h : Al r r')
    {k : Kind} {u rest : Str} (hne : u ≠ []) (e : u ++ rest = r') (hw : Matches k (t.text ++ u)) : False := by
  have htne := matches_ne_nil hm
  have hu : 0 < u.length := List.length_pos_iff.mpr hne
  -- a longer match without white space is there already
  have easy : (∀ c ∈ t.text ++ u, isWs c = false) → False := by
    intro hws
    obtain ⟨z, hz⟩ := h.pre e fun c hc => hws c (List.mem_append_right _ hc)
    have := hb k (t.text ++ u) z (by rw [List.append_assoc, hz]) hw
    rw [List.length_append] at this
    omega
  -- and so is one that ends in something else
  have back : (∀ c z, t.text ++ u = z ++ [c] → isWs c = false) →
      ∃ u', u' ≠ [] ∧ (∃ v, u' ++ v = r) ∧ Al (t.text ++ u') (t.text ++ u) := by
    intro hl
    obtain ⟨u', v', hr, ha⟩ := h.split e.symm fun c z hz => hl c (t.text ++ z) (by rw [hz]; simp)
    refine ⟨u', ?_, ⟨v', hr.symm⟩, ha.prepend _⟩
    rintro rfl
    exact hne ha.symm.nil_inv
  have done : ∀ {u' : Str}, u' ≠ [] → (∃ v, u' ++ v = r) → Matches k (t.text ++ u') → False := by
    rintro u' hu' ⟨v, hv⟩ hm'
    have := hb k _ v (by rw [List.append_assoc, hv]) hm'
    have h' : 0 < u'.length := List.length_pos_iff.mpr hu'
    rw [List.length_append] at this
    omega
  have snoc : ∀ {c q : Char} {z b : Str}, z ++ [c] = b ++ [q] → c = q := by
    intro c q z b e
    have := (List.append_inj' e rfl).2
    injection this
  generalize hx : t.text ++ u = x at hw easy back
  have two : (∃ c, x = [c]) → False := by
    rintro ⟨c, rfl⟩
    have := congrArg List.length hx
    rw [List.length_append] at this
    have h' : 0 < t.text.length := List.length_pos_iff.mpr htne
    simp only [List.length_cons, List.length_nil] at this
    omega
  have quote : ∀ {q : Char} {b : Str}, isWs q = false → QBody q b → x = q :: (b ++ [q]) →
      (∀ b', QBody q b' → Matches k (q :: (b' ++ [q]))) → False := by
    intro q b hq hb' hxq hk
    obtain ⟨u', h1, h2, h3⟩ := back fun c z hz => by
      rw [hxq, ← List.cons_append] at hz
      exact (snoc hz).symm ▸ hq
    rw [hxq] at h3
    obtain ⟨x1, e1, h4⟩ := h3.cons_inv hq
    obtain ⟨b', e2, h5⟩ := h4.snoc_inv rfl hq
    refine done h1 h2 ?_
    rw [e1, e2]
    exact hk b' (h5.qbody hq _ (Nat.le_refl _) hb')
  have hl := look hm
  have hcom : t.kind ≠ .comment ∧ t.kind ≠ .ws := by
    constructor <;> (intro e; rw [Tok.visible, e] at hv; cases hv)
  generalize t.text = tx at *
  generalize t.kind = tk at *
  have flatWs : ∀ {c : Char}, flat c = true → isWs c = false := by
    intro c hc
    cases hw : isWs c with
    | false => rfl
    | true => rw [ws_not_flat hw] at hc; cases hc
  cases look hw with
  | flat hf => exact easy fun c hc => flatWs (hf.1 c hc)
  | sym2 h2 =>
    refine easy ?_
    rcases two_cases h2 with rfl | rfl | rfl | rfl | rfl | rfl | rfl | rfl | rfl <;> decide
  | one => exact two ⟨_, rfl⟩
  | str hb' => exact quote rfl hb' rfl fun _ h => .str _ h
  | quoted hb' => exact quote rfl hb' rfl fun _ h => .quoted _ h
  | backquoted hb' => exact quote rfl hb' rfl fun _ h => .backquoted _ h
  | @ustr b hb' =>
    obtain ⟨u', h1, h2, h3⟩ := back fun c z hz => by
      have := snoc (z := z) (b := 'U' :: '&' :: '\'' :: b) (c := c) (q := '\'') hz.symm
      subst this
      rfl
    obtain ⟨x1, e1, h4⟩ := h3.cons_inv rfl
    obtain ⟨x2, rfl, h5⟩ := h4.cons_inv rfl
    obtain ⟨x3, rfl, h6⟩ := h5.cons_inv rfl
    obtain ⟨b', rfl, h7⟩ := h6.snoc_inv rfl rfl
    refine done h1 h2 ?_
    rw [e1]
    exact .ustr _ (h7.qbody rfl _ (Nat.le_refl _) hb')
  | @bin b hb' =>
    obtain ⟨u', h1, h2, h3⟩ := back fun c z hz => by
      have := snoc (z := z) (b := 'X' :: '\'' :: b) (c := c) (q := '\'') hz.symm
      subst this
      rfl
    obtain ⟨x1, e1, h4⟩ := h3.cons_inv rfl
    obtain ⟨x2, rfl, h5⟩ := h4.cons_inv rfl
    obtain ⟨b', rfl, h7⟩ := h5.snoc_inv rfl rfl
    refine done h1 h2 ?_
    rw [e1]
    exact .bin _ fun hm => hb' (h7.mem rfl hm)
  | line =>
    cases tx with
    | nil => exact htne rfl
    | cons x tx =>
      injection hx with h1 h2
      subst h1
      cases tx with
      | nil =>
        have h2 : u = '-' :: _ := h2
        subst h2
        obtain ⟨r1, rfl, _⟩ := (show Al r ('-' :: _) from e ▸ h).cons_inv rfl
        have := hb .comment (c% "--") r1 rfl (.lineComment [] [] nofun (.inl rfl))
        exact absurd this (by decide)
      | cons y tx =>
        injection h2 with h3 h4
        subst h3
        generalize hy : '-' :: '-' :: tx = y at hl
        cases hl with
        | flat hf =>
          obtain ⟨d, z, h, h'⟩ := hf.2 [] ('-' :: tx) (by rw [← hy]; rfl)
          cases h
          cases h'
        | sym2 h => rcases two_cases h with rfl | rfl | rfl | rfl | rfl | rfl | rfl | rfl | rfl <;> cases hy
        | line => exact hcom.1 rfl
        | ws h => exact hcom.2 rfl
        | _ => cases hy
  | @block b hb' =>
    obtain ⟨u', h1, h2, h3⟩ := back fun c z hz => by
      have := snoc (z := z) (b := '/' :: '*' :: (b ++ c% "*")) (c := c) (q := '/') (by rw [← hz]; simp)
      subst this
      rfl
    obtain ⟨x1, e1, h4⟩ := h3.cons_inv rfl
    obtain ⟨x2, rfl, h5⟩ := h4.cons_inv rfl
    obtain ⟨b1, rfl, h6⟩ := h5.snoc_inv (b := b ++ c% "*") (q := '/') (by simp) rfl
    obtain ⟨b2, rfl, h7⟩ := h6.snoc_inv rfl rfl
    refine done h1 h2 ?_
    rw [e1, List.append_assoc]
    exact .blockComment _ fun hm => hb' (h6.closes hm)
  | ws hw' =>
    cases tx with
    | nil => exact htne rfl
    | cons x tx =>
      have h1 : isWs x = true := hw' x (by rw [← hx]; simp)
      rw [hns x tx rfl] at h1
      cases h1

theorem toks_wsRun {w : Str} (h : ∀ c ∈ w, isWs c = true) (s : Str) : toks (w ++ s) = toks s := by
  induction w with
  | nil => rfl
  | cons c w ih =>
    rw [List.cons_append, toks_ws _ _ (h c List.mem_cons_self), ih fun d hd => h d (List.mem_cons_of_mem _ hd)]

theorem relaid_lexOne {c : Char} {s r' : Str} (hv : (lexOne c s).1.visible = true) (h : Al (lexOne c s).2 r') :
    toks ((lexOne c s).1.text ++ r') = (lexOne c s).1 :: toks r' := by
  have hap := lexOne_append c s
  have hm := lexOne_matches c s
  have hbest := lexOne_best c s
  have hc : isWs c = false := by
    cases hc : isWs c with
    | false => rfl
    | true => rw [lexOne_ws s hc] at hv; cases hv
  generalize (lexOne c s).1 = t at *
  generalize (lexOne c s).2 = r at *
  cases hx : t.text with
  | nil => exact absurd hx (matches_ne_nil hm)
  | cons d x =>
    have hd : d = c := by rw [hx] at hap; injection hap
    subst hd
    have := lexOne_of_longest (t := t) (r := r') (c := d) (s := x ++ r') (by rw [hx]; rfl) hm (by
      intro k w rest e hk
      have e : w ++ rest = t.text ++ r' := by rw [hx]; exact e
      rcases List.append_eq_append_iff.mp e with ⟨y, hy, -⟩ | ⟨y, hy, hy'⟩
      · exact hbest k w (y ++ r) (by rw [← List.append_assoc, ← hy, hap]) hk
      · cases y with
        | nil => exact hbest k w r (by rw [hy, List.append_nil, hap]) hk
        | cons a u =>
          rw [hy] at hk
          refine (relaid_best hm hv ?_ ?_ h (by simp) hy'.symm hk).elim
          · intro b z e; rw [hx] at e; cases e; exact hc
          · intro k w rest e hm'
            rw [hap] at e
            have : _ ∨ _ := hbest k w rest e hm'
            omega)
    rw [List.cons_append, toks_step this, if_pos hv]

/-- The texts of white space tokens are white space. -/
theorem ws_text {c : Char} {s : Str} (h : (lexOne c s).1.kind = .ws) :
    (lexOne c s).1.text ≠ [] ∧ ∀ d ∈ (lexOne c s).1.text, isWs d = true := by
  have hm := lexOne_matches c s
  rw [h] at hm
  refine ⟨matches_ne_nil hm, ?_⟩
  cases hm with
  | ws _ _ h => exact h

theorem relaid_al : ∀ (n : Nat) (s : Str), s.length ≤ n → ∀ {s' : Str}, Relaid (lexGo n s) s' → Al s s'
  | n, [], _, s', h => by
    rw [show lexGo n [] = [] by cases n <;> rfl] at h
    cases h
    exact .nil
  | 0, c :: s, hn, s', h => by cases hn
  | n + 1, c :: s, hn, s', h => by
    have hle : (lexOne c s).2.length ≤ n := Nat.le_trans (lexOne_length c s) (Nat.le_of_succ_le_succ hn)
    rw [← lexOne_append c s]
    change Relaid ((lexOne c s).1 :: lexGo n (lexOne c s).2) s' at h
    cases h with
    | keep h => exact (relaid_al n _ hle h).prepend _
    | space hk hw hw' h =>
      obtain ⟨h1, h2⟩ := ws_text hk
      exact .ws h1 hw h2 (fun c hc => wsChar (hw' c hc)) (relaid_al n _ hle h)

theorem comment_toks {c : Char} {s r' : Str} (h : (lexOne c s).1.kind = .comment) (hal : Al (lexOne c s).2 r') :
    toks ((lexOne c s).1.text ++ r') = toks r' := by
  have hm := lexOne_matches c s
  have hap := lexOne_append c s
  have hbest := lexOne_best c s
  generalize (lexOne c s).1 = t at *
  generalize (lexOne c s).2 = r at *
  rw [h] at hm
  generalize hx : t.text = x at hm
  cases hm with
  | blockComment b hb =>
    have := toks_block b r' hb
    simpa using this
  | lineComment b e hb he =>
    have h1 : '\r' ∉ b := fun h => (hb _ h).1 rfl
    have h2 : '\n' ∉ b := fun h => (hb _ h).2 rfl
    have close : e = c% "\n" ∨ e = c% "\r\n" ∨ e = c% "\r" → toks ('-' :: '-' :: (b ++ e) ++ r') = toks r' := by
      intro he
      have := toks_line b e r' h1 h2 he
      simpa using this
    rcases he with rfl | rfl | rfl | rfl
    · have hr : r = [] := by
        cases r with
        | nil => rfl
        | cons d r =>
          exfalso
          have bad : ∀ w z, w ++ z = t.text ++ d :: r → Matches .comment w → t.text.length < w.length → False := by
            intro w z e hm hl
            rw [hap] at e
            have : _ ∨ _ := hbest _ w z e hm
            omega
          by_cases hd : d = '\r' ∨ d = '\n'
          · refine bad ('-' :: '-' :: (b ++ [d])) r (by rw [hx]; simp) (.lineComment b [d] hb ?_) (by rw [hx]; simp)
            rcases hd with rfl | rfl <;> simp
          · refine bad ('-' :: '-' :: ((b ++ [d]) ++ [])) r (by rw [hx]; simp)
              (.lineComment (b ++ [d]) [] ?_ (.inl rfl)) (by rw [hx]; simp)
            intro a ha
            rcases List.mem_append.mp ha with ha | ha
            · exact hb a ha
            · rw [List.mem_singleton] at ha
              subst ha
              exact ⟨fun h => hd (.inl h), fun h => hd (.inr h)⟩
      subst hr
      cases hal.symm.nil_inv
      have := toks_line_end b h1 h2
      simpa using this
    · exact close (.inr (.inr rfl))
    · exact close (.inl rfl)
    · exact close (.inr (.inl rfl))

theorem toks_relaid : ∀ (n : Nat) (s : Str), s.length ≤ n → ∀ {s' : Str}, Relaid (lexGo n s) s' → toks s' = toks s
  | n, [], _, s', h => by
    rw [show lexGo n [] = [] by cases n <;> rfl] at h
    cases h
    rfl
  | 0, c :: s, hn, s', h => by cases hn
  | n + 1, c :: s, hn, s', h => by
    have hle : (lexOne c s).2.length ≤ n := Nat.le_trans (lexOne_length c s) (Nat.le_of_succ_le_succ hn)
    have e : toks (c :: s) = if (lexOne c s).1.visible then (lexOne c s).1 :: toks (lexOne c s).2
        else toks (lexOne c s).2 := toks_step rfl
    rw [e]
    change Relaid ((lexOne c s).1 :: lexGo n (lexOne c s).2) s' at h
    cases h with
    | keep h =>
      have ih := toks_relaid n _ hle h
      cases hv : (lexOne c s).1.visible with
      | true => rw [relaid_lexOne hv (relaid_al n _ hle h), ih]; rfl
      | false =>
        have hk : (lexOne c s).1.kind = .ws ∨ (lexOne c s).1.kind = .comment := by
          unfold Tok.visible at hv
          split at hv
          · next h => exact .inr h
          · next h => exact .inl h
          · cases hv
        rcases hk with hk | hk
        · rw [toks_wsRun (ws_text hk).2, ih]; rfl
        · rw [comment_toks hk (relaid_al n _ hle h), ih]; rfl
    | space hk hw hw' h =>
      have hv : (lexOne c s).1.visible = false := by rw [Tok.visible, hk]
      rw [toks_wsRun (fun c hc => wsChar (hw' c hc)), toks_relaid n _ hle h, hv]
      rfl

end Treeno
