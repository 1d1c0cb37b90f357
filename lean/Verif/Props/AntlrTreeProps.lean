import Verif.Lemmas.AntlrTree
import Verif.Lemmas.ExtendMore
import Verif.Lemmas.TypeSound
import Verif.Lemmas.Krfl
import Verif.Props.TypeTextProps
import Verif.Props.CallProps
/-!
# C77: the command `antlr-tree` draws the parse tree

The theorems hold for every tree of named rules over the tokens, whatever parser made it.
-/
set_option autoImplicit false
namespace Treeno.Props
open Spec

/-- **C77.** Without parentheses in the text, the tree that is drawn is the parse tree: the rules are its inner nodes and the
words of the tokens its leaves. -/
theorem C77_picture_partial (t : Rose) (hn : t.Named) (hi : t.Inner) (h : ∀ s ∈ t.tokens, '(' ∉ s ∧ ')' ∉ s) :
    ∃ p, antlrTree t = .ok p ∧ t.picture = [p] := by
  match t, hi with
  | .rule n (k :: ks), _ => exact ⟨_, antlr_picture hn h, by rw [Rose.picture]⟩

/-- **C77.** Whatever is drawn shows the names of the rules and the words of the tokens in their order: only parentheses and
white space are lost. -/
theorem C77_words (t : Rose) (p : PTree) (hn : t.Named) (h : antlrTree t = .ok p) : p.shown = t.shown :=
  antlr_words hn h

/-- **C77.** The tree is drawn if the parentheses of the tokens match. -/
theorem C77_drawn (t : Rose) (hn : t.Named) (hi : t.Inner) (h : Matched t.tokens.flatten) :
    ∃ p, antlrTree t = .ok p := antlr_matched hn hi h

/-- **C77.** It is drawn exactly if the text that `toStringTree` writes is one pair of parentheses around matching ones. -/
theorem C77_drawn_exact (n : Str) (ks : List Rose) (hn : Rose.Named (.rule n ks)) :
    (∃ p, antlrTree (.rule n ks) = .ok p) ↔
      ∃ inner, Rose.text (.rule n ks) = '(' :: (inner ++ [')']) ∧ Matched inner := by
  cases ks with
  | nil =>
    rw [Rose.Named] at hn
    have ht : Rose.text (.rule n []) = n := by rw [Rose.text_none, esc_plain hn.1.2]
    constructor
    · rintro ⟨p, h⟩
      unfold antlrTree at h
      rw [ht] at h
      have := (from_closes n).1 ⟨p, h⟩
      have hc := closes_count _ _ this
      cases n with
      | nil => exact absurd rfl hn.1.1
      | cons c n =>
        have h1 := hn.1.2 c (by simp)
        rw [closes_cons, if_neg h1.2.1, if_neg h1.2.2, if_neg (by simp [h1.1])] at this
        cases this
    · rintro ⟨inner, h, _⟩
      rw [ht] at h
      subst h
      exact absurd rfl (hn.1.2 '(' (by simp)).2.1
  | cons k ks =>
    rw [antlr_inner]
    have hx := Rose.text_inner n k ks []
    rw [List.append_nil] at hx
    have e : visible n ++ ' ' :: (Rose.text k ++ (Rose.texts ks ++ ')' :: [])) =
        (visible n ++ ' ' :: (Rose.text k ++ Rose.texts ks)) ++ [')'] := by simp
    rw [e] at hx
    rw [hx]
    constructor
    · exact fun h => ⟨_, rfl, h⟩
    · rintro ⟨inner, h, hm⟩
      have h' := List.append_cancel_right (List.cons.inj h).2
      rw [h']
      exact hm

/-- **C77.** The command raises ValueError if it does not draw a tree, and it does so whenever the tokens have more opening
than closing parentheses or the other way round. -/
theorem C77_unmatched (t : Rose) (hn : t.Named) (h : t.tokens.flatten.count '(' ≠ t.tokens.flatten.count ')') :
    antlrTree t = .error .valueError := by
  rcases antlr_or t with ⟨p, hp⟩ | he
  · exact absurd (antlr_count hn hp) h
  · exact he

/-- **C77 (expressions).** An expression that is accepted is drawn, whatever the parse tree, unless a token other than `(` and
`)` has parentheses of its own that do not match. -/
theorem C77_expression_partial (s : Str) (e : Expr) (t : Rose) (hn : t.Named) (hi : t.Inner)
    (hp : ∀ x ∈ toks s, OwnMatched x) (ht : t.tokens = (toks s).map (·.text) ++ [c% "<EOF>"])
    (h : expressionFromSql s = .ok e) : ∃ p, antlrTree t = .ok p := by
  unfold expressionFromSql at h
  split at h
  · rename_i c hc
    obtain ⟨used, h1, hb, _⟩ := lv_bal P_sound hc
    rw [List.append_nil] at h1
    apply C77_drawn t hn hi
    have hm := Bal.matched (h1 ▸ hb) hp
    rw [Matched, ht, List.flatten_append, depthAfter_app, show depthAfter 0 _ = some 0 from hm]
    rfl
  · cases h

/-- **C77 (types).** The same for types. -/
theorem C77_type_partial (s : Str) (τ : Ty) (t : Rose) (hn : t.Named) (hi : t.Inner)
    (hp : ∀ x ∈ toks s, OwnMatched x) (ht : t.tokens = (toks s).map (·.text) ++ [c% "<EOF>"])
    (h : typeFromSql s = .ok τ) : ∃ p, antlrTree t = .ok p := by
  obtain ⟨c, hg, _⟩ := C53_type_text_sound s τ h
  apply C77_drawn t hn hi
  have hm := Bal.matched (bal_gty hg) hp
  rw [Matched, ht, List.flatten_append, depthAfter_app, show depthAfter 0 _ = some 0 from hm]
  rfl

/-- **C77 (queries).** The same for the tokens that rule `query` has read: it may stop before the end of the text. -/
theorem C77_query_partial (s : Str) (c : CQ) (used rest : List Tok) (t : Rose) (hn : t.Named) (hi : t.Inner)
    (h : P .query (toks s) = some (c, rest)) (hu : toks s = used ++ rest) (hp : ∀ x ∈ used, OwnMatched x)
    (ht : t.tokens = used.map (·.text)) : ∃ p, antlrTree t = .ok p := by
  obtain ⟨a, used', b, e⟩ := query_s P_sound h
  have hb := Bal.canon e (CQ.wbal _ a)
  have : used' = used := List.append_cancel_right (b.symm.trans hu)
  subst this
  apply C77_drawn t hn hi
  rw [ht]
  exact Bal.matched hb hp

/-- **C77.** The text `'('` is accepted as an expression, but no parse tree of it can be drawn. -/
theorem C77_string_false : (∃ e, expressionFromSql (c% "'('") = .ok e) ∧
    ∀ t : Rose, t.Named → t.tokens = (toks (c% "'('")).map (·.text) ++ [c% "<EOF>"] →
      antlrTree t = .error .valueError := by
  refine ⟨⟨text (c% "("), expr_of_parserN 60 (by krfl)⟩, fun t hn ht => C77_unmatched t hn ?_⟩
  rw [ht]
  decide +kernel

theorem word_plain : ∀ (s a w : Str), (∀ c ∈ a, c ≠ '(' ∧ c ≠ ')') → w ∈ wordsFrom a s → '(' ∉ w ∧ ')' ∉ w
  | [], a, w, ha, h => by
    have h' : w = a := by
      rw [wordsFrom, emitWord] at h
      split at h
      · cases h
      · exact List.mem_singleton.1 h
    subst h'
    exact ⟨fun h => (ha _ h).1 rfl, fun h => (ha _ h).2 rfl⟩
  | c :: s, a, w, ha, h => by
    rw [wordsFrom] at h
    split at h
    · rcases List.mem_append.1 h with h | h
      · exact word_plain [] a w ha (by rw [wordsFrom]; exact h)
      · exact word_plain s [] w (by simp) h
    · rename_i hc
      refine word_plain s _ w (fun x hx => ?_) h
      rcases List.mem_append.1 hx with hx | hx
      · exact ha x hx
      · rw [List.mem_singleton] at hx
        subst hx
        simp at hc
        exact ⟨hc.1.2, hc.2⟩

mutual
theorem rose_shown_plain : ∀ (t : Rose), t.Named → ∀ w ∈ t.shown, '(' ∉ w ∧ ')' ∉ w
  | .tok s, _, w, h => by rw [Rose.shown] at h; exact word_plain _ [] w (by simp) h
  | .rule n ks, hn, w, h => by
    rw [Rose.Named] at hn
    rw [Rose.shown] at h
    rcases List.mem_cons.1 h with rfl | h
    · exact ⟨fun h => (hn.1.2 _ h).2.1 rfl, fun h => (hn.1.2 _ h).2.2 rfl⟩
    · exact rose_shownL_plain ks hn.2 w h
theorem rose_shownL_plain : ∀ (ks : List Rose), Rose.NamedL ks → ∀ w ∈ Rose.shownL ks, '(' ∉ w ∧ ')' ∉ w
  | [], _, w, h => by rw [Rose.shownL] at h; cases h
  | k :: ks, hn, w, h => by
    rw [Rose.NamedL] at hn
    rw [Rose.shownL] at h
    rcases List.mem_append.1 h with h | h
    · exact rose_shown_plain k hn.1 w h
    · exact rose_shownL_plain ks hn.2 w h
end

/-- **C77.** No parenthesis is ever shown, although it is a token like any other. -/
theorem C77_parentheses_false (t : Rose) (p : PTree) (hn : t.Named) (h : antlrTree t = .ok p) :
    ∀ w ∈ p.shown, '(' ∉ w ∧ ')' ∉ w := by
  rw [C77_words t p hn h]
  exact rose_shown_plain t hn

/-! ## Examples -/

def sumTree : Rose :=
  .rule (c% "standaloneExpression") [.rule (c% "expression") [.rule (c% "booleanExpression")
    [.rule (c% "valueExpression") [.rule (c% "valueExpression") [.rule (c% "primaryExpression")
      [.rule (c% "number") [.tok (c% "1")]]], .tok (c% "+"), .rule (c% "valueExpression")
      [.rule (c% "primaryExpression") [.rule (c% "number") [.tok (c% "2")]]]]]], .tok (c% "<EOF>")]

theorem plain_word {s : Str} (h : (!s.isEmpty && s.all fun c => !isWhite c && c != '(' && c != ')') = true) :
    PlainWord s := by
  simp at h
  refine ⟨h.1, fun c hc => ?_⟩
  have := h.2 c hc
  exact ⟨this.1.1, this.1.2, this.2⟩

theorem sumTree_named : sumTree.Named := by
  simp [sumTree, Rose.Named, Rose.NamedL]
  refine ⟨?_, ?_, ?_, ?_, ?_, ?_⟩ <;> exact plain_word (by decide +kernel)

/-- `1+2` of README.md 37. -/
example : ∃ p, antlrTree sumTree = .ok p ∧ sumTree.picture = [p] :=
  C77_picture_partial sumTree sumTree_named trivial (by decide +kernel)

example : ∃ p, antlrTree sumTree = .ok p :=
  C77_expression_partial (c% "1+2") (.bin .add (num 1) (num 2)) sumTree sumTree_named trivial
    (by
      have : toks (c% "1+2") = [⟨.int, c% "1"⟩, ⟨.sym, c% "+"⟩, ⟨.int, c% "2"⟩] := by krfl
      rw [this]
      intro x hx
      simp at hx
      rcases hx with rfl | rfl | rfl <;> exact .inr (.inr rfl))
    (by krfl) (expr_of_parserN 60 (by krfl))

/-- `f(*)`: the parentheses become a node, and what follows the opening one its label. -/
example : antlrTree (.rule (c% "call") [.rule (c% "name") [.tok (c% "f")], .tok (c% "("), .tok (c% "*"), .tok (c% ")")]) =
    .ok (.node (c% "call") [.node (c% "name") [.leaf (c% "f")], .node (c% "*") []]) := by rfl

/-- A string with a space is two leaves. -/
example : antlrTree (.rule (c% "string") [.tok (c% "'a b'")]) =
    .ok (.node (c% "string") [.leaf (c% "'a"), .leaf (c% "b'")]) := by rfl

/-- Two strings, `')'` and `'('`: the tree is drawn, but the second one is moved out of its row. -/
example : antlrTree (.rule (c% "query") [.rule (c% "row") [.rule (c% "string") [.tok (c% "')'")],
      .rule (c% "string") [.tok (c% "'('")]]]) =
    .ok (.node (c% "query") [.node (c% "row") [.node (c% "string") [.leaf (c% "'")], .leaf (c% "'")],
      .node (c% "string") [.leaf (c% "'"), .node (c% "'") []]]) := by rfl

end Treeno.Props
