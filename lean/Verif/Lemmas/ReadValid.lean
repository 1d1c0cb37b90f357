import Verif.Lemmas.ConvEqs
import Verif.Lemmas.CheckEqs
import Verif.Lemmas.ConvMean
/-! # The constructors accept what is read -/
set_option autoImplicit false
set_option linter.unusedVariables false
namespace Treeno

/-- What the visit returns passed its constructors. -/
def Made (x : Except Err Expr) : Prop := ∀ e, x = .ok e → ∃ t, e.check = .ok t
def MadeQ (x : Except Err (Option Query)) : Prop := ∀ q, x = .ok (some q) → ∃ t, q.check = .ok t

theorem Made.bind {α : Type} {x : Except Err α} {f : α → Except Err Expr} (h : ∀ a, Made (f a)) : Made (x >>= f) := by
  intro e he
  obtain ⟨a, _, ha⟩ := bind_ok he
  exact h a e ha
theorem Made.err {er : Err} : Made (.error er) := fun _ h => nomatch h
theorem Made.build {e : Expr} : Made (Expr.build e) := by
  intro e' h
  obtain ⟨t, ht, h⟩ := bind_ok h
  cases h
  exact ⟨t, ht⟩
theorem Made.neg {n : Bool} {e : Expr} : Made (negIf n e) := by
  unfold negIf; split <;> exact .build
theorem Made.zone {z : CE} : Made (zoneOf z) := by
  unfold zoneOf
  split
  · exact .bind fun _ => .build
  · exact .err
theorem Made.num {m : Bool} {t : Tok} : Made (numLit m t) := by
  unfold numLit
  split
  · exact .build
  · split
    · exact .bind fun _ => .build
    · exact .err
  · exact .build
  · exact .err
theorem Made.special {n : Str} {args : List Expr} {ob : List Ord} {fl : Option Expr} {ign : Option Bool} {w : Option Win} :
    Made (specialOf n args ob fl ign w) := by
  unfold specialOf listaggCall normalizeCall curTimeCall
  repeat' first | exact .build | exact .err | exact .bind fun _ => .err | split
theorem Made.call {name : List Str} {args : List Expr} {ob : List Ord} {fl : Option Expr} {ign : Option Bool} {w : Option Win} :
    Made (callOf name args ob fl ign w) := by
  unfold callOf
  split
  · split
    · split
      · exact .err
      · split
        · exact .build
        · exact .err
    · split
      · exact .build
      · exact .special
  · exact .err
theorem Made.lambda {ins : List Str} {e : Expr} : Made (lambdaOf ins e) := .bind fun _ => .build
theorem Made.deref {b : Expr} {n : Str} : Made (derefOf b n) := by
  unfold derefOf
  split
  · split
    · exact .err
    · exact .build
  · exact .err
  · exact .build
theorem Made.dateTime {t : Tok} {p : Option Tok} : Made (dateTimeOf t p) := by
  unfold dateTimeOf
  repeat' first | exact .build | exact .err | split
theorem Made.session {t : Tok} : Made (sessionOf t) := by
  unfold sessionOf
  repeat' first | exact .build | exact .err | split

theorem set_attr {f : Query → Query} {x : Option Query} {q : Query} (h : setAttr f x = .ok (some q)) : ∃ p, x = some p ∧ q = f p := by
  cases x with
  | none => cases h
  | some p => cases h; exact ⟨p, rfl, rfl⟩
theorem parts_check {b : QBody} {off lim : Option Int} {ob : List Ord} {w : List Named} {t : Ty} :
    (Query.mk b off lim ob w).check = .ok t ↔ Named.checks w = .ok () ∧ Ord.checks ob = .ok () ∧ b.check = .ok t := by
  rw [Query_check_mk]
  constructor
  · intro h
    obtain ⟨⟨⟩, h1, h⟩ := bind_ok h
    obtain ⟨⟨⟩, h2, h⟩ := bind_ok h
    exact ⟨h1, h2, h⟩
  · rintro ⟨h1, h2, h3⟩
    rw [h1]
    show (Ord.checks ob >>= _) = _
    rw [h2]
    exact h3
theorem MadeQ.order {ob : List Ord} {x : Option Query} (ho : Ord.checks ob = .ok ()) (hx : ∀ q, x = some q → ∃ t, q.check = .ok t) :
    MadeQ (orderQuery ob x) := by
  intro q h
  unfold orderQuery at h
  split at h
  · cases h; exact hx _ rfl
  · obtain ⟨⟨b, off, lim, ob', w⟩, rfl, rfl⟩ := set_attr h
    obtain ⟨t, ht⟩ := hx _ rfl
    obtain ⟨h1, _, h3⟩ := parts_check.1 ht
    exact ⟨t, parts_check.2 ⟨h1, ho, h3⟩⟩
theorem MadeQ.offset {o : Option (Tok × Option Tok)} {x : Option Query} (hx : ∀ q, x = some q → ∃ t, q.check = .ok t) :
    MadeQ (offsetQuery o x) := by
  intro q h
  unfold offsetQuery at h
  split at h
  · cases h; exact hx _ rfl
  · obtain ⟨_, _, h⟩ := bind_ok h
    obtain ⟨⟨b, off, lim, ob', w⟩, rfl, rfl⟩ := set_attr h
    obtain ⟨t, ht⟩ := hx _ rfl
    exact ⟨t, parts_check.2 (parts_check.1 ht)⟩
theorem MadeQ.limit {o : CLimit} {x : Option Query} (hx : ∀ q, x = some q → ∃ t, q.check = .ok t) : MadeQ (limitQuery o x) := by
  intro q h
  unfold limitQuery at h
  split at h
  · obtain ⟨_, _, h⟩ := bind_ok h
    obtain ⟨⟨b, off, lim, ob', w⟩, rfl, rfl⟩ := set_attr h
    obtain ⟨t, ht⟩ := hx _ rfl
    exact ⟨t, parts_check.2 (parts_check.1 ht)⟩
  · cases h; exact hx _ rfl
theorem MadeQ.with_ {w : List Named} {x : Option Query} (hw : Named.checks w = .ok ()) (hx : ∀ q, x = some q → ∃ t, q.check = .ok t) :
    MadeQ (withQuery w x) := by
  intro q h
  unfold withQuery at h
  split at h
  · cases h; exact hx _ rfl
  · obtain ⟨⟨b, off, lim, ob', w'⟩, rfl, rfl⟩ := set_attr h
    obtain ⟨t, ht⟩ := hx _ rfl
    obtain ⟨_, h2, h3⟩ := parts_check.1 ht
    exact ⟨t, parts_check.2 ⟨hw, h2, h3⟩⟩
theorem query_built {x q : Query} (h : (Query.build x >>= fun q => Except.ok (some q)) = Except.ok (ε := Err) (some q)) :
    ∃ t, q.check = .ok t := by
  obtain ⟨_, hb, h⟩ := bind_ok h
  cases h
  obtain ⟨t, ht, hb⟩ := bind_ok hb
  cases hb
  exact ⟨t, ht⟩
theorem made_body (c : CQT) : MadeQ c.conv := by
  intro q h
  cases c with
  | set op quant l r =>
    rw [CQT_conv_set] at h
    obtain ⟨_, _, h⟩ := bind_ok h
    obtain ⟨_, _, h⟩ := bind_ok h
    obtain ⟨_, _, h⟩ := bind_ok h
    obtain ⟨_, _, h⟩ := bind_ok h
    obtain ⟨_, _, h⟩ := bind_ok h
    obtain ⟨_, _, h⟩ := bind_ok h
    exact query_built h
  | spec quant items fr wh gq gs hv wins =>
    rw [CQT_conv_spec] at h
    obtain ⟨_, _, h⟩ := bind_ok h
    obtain ⟨_, _, h⟩ := bind_ok h
    obtain ⟨_, _, h⟩ := bind_ok h
    obtain ⟨_, _, h⟩ := bind_ok h
    obtain ⟨_, _, h⟩ := bind_ok h
    obtain ⟨_, _, h⟩ := bind_ok h
    obtain ⟨_, _, h⟩ := bind_ok h
    obtain ⟨_, _, h⟩ := bind_ok h
    obtain ⟨_, _, h⟩ := bind_ok h
    exact query_built h
  | table name =>
    rw [CQT_conv_table] at h
    obtain ⟨_, _, h⟩ := bind_ok h
    obtain ⟨_, _, h⟩ := bind_ok h
    exact query_built h
  | values es =>
    rw [CQT_conv_values] at h
    obtain ⟨_, _, h⟩ := bind_ok h
    exact query_built h
  | sub q =>
    rw [CQT_conv_sub] at h
    obtain ⟨_, _, h⟩ := bind_ok h
    cases h

mutual
theorem made_CE : ∀ c : CE, Made c.conv
  | .or_ l r => by rw [CE_conv_or_]; repeat' first | exact .build | exact .neg | exact .zone | exact .num | exact .call | exact .lambda | exact .deref | exact .dateTime | exact .session | exact .err | refine .bind fun _ => ?_
  | .and_ l r => by rw [CE_conv_and_]; repeat' first | exact .build | exact .neg | exact .zone | exact .num | exact .call | exact .lambda | exact .deref | exact .dateTime | exact .session | exact .err | refine .bind fun _ => ?_
  | .not_ v => by rw [CE_conv_not_]; repeat' first | exact .build | exact .neg | exact .zone | exact .num | exact .call | exact .lambda | exact .deref | exact .dateTime | exact .session | exact .err | refine .bind fun _ => ?_
  | .cmp op l r => by rw [CE_conv_cmp]; repeat' first | exact .build | exact .neg | exact .zone | exact .num | exact .call | exact .lambda | exact .deref | exact .dateTime | exact .session | exact .err | refine .bind fun _ => ?_
  | .between neg v l u => by rw [CE_conv_between]; repeat' first | exact .build | exact .neg | exact .zone | exact .num | exact .call | exact .lambda | exact .deref | exact .dateTime | exact .session | exact .err | refine .bind fun _ => ?_
  | .inList neg v es => by rw [CE_conv_inList]; repeat' first | exact .build | exact .neg | exact .zone | exact .num | exact .call | exact .lambda | exact .deref | exact .dateTime | exact .session | exact .err | refine .bind fun _ => ?_
  | .inSub neg v q => by rw [CE_conv_inSub]; repeat' first | exact .build | exact .neg | exact .zone | exact .num | exact .call | exact .lambda | exact .deref | exact .dateTime | exact .session | exact .err | refine .bind fun _ => ?_
  | .like neg v p esc => by rw [CE_conv_like]; repeat' first | exact .build | exact .neg | exact .zone | exact .num | exact .call | exact .lambda | exact .deref | exact .dateTime | exact .session | exact .err | refine .bind fun _ => ?_
  | .isNull neg v => by rw [CE_conv_isNull]; repeat' first | exact .build | exact .neg | exact .zone | exact .num | exact .call | exact .lambda | exact .deref | exact .dateTime | exact .session | exact .err | refine .bind fun _ => ?_
  | .distinct neg l r => by rw [CE_conv_distinct]; repeat' first | exact .build | exact .neg | exact .zone | exact .num | exact .call | exact .lambda | exact .deref | exact .dateTime | exact .session | exact .err | refine .bind fun _ => ?_
  | .quantified u1_ u2_ l u3_ => by rw [CE_conv_quantified]; repeat' first | exact .build | exact .neg | exact .zone | exact .num | exact .call | exact .lambda | exact .deref | exact .dateTime | exact .session | exact .err | refine .bind fun _ => ?_
  | .concat l r => by rw [CE_conv_concat]; repeat' first | exact .build | exact .neg | exact .zone | exact .num | exact .call | exact .lambda | exact .deref | exact .dateTime | exact .session | exact .err | refine .bind fun _ => ?_
  | .arith op l r => by rw [CE_conv_arith]; repeat' first | exact .build | exact .neg | exact .zone | exact .num | exact .call | exact .lambda | exact .deref | exact .dateTime | exact .session | exact .err | refine .bind fun _ => ?_
  | .sign op v => by rw [CE_conv_sign]; repeat' first | exact .build | exact .neg | exact .zone | exact .num | exact .call | exact .lambda | exact .deref | exact .dateTime | exact .session | exact .err | refine .bind fun _ => ?_
  | .atZone v z => by rw [CE_conv_atZone]; repeat' first | exact .build | exact .neg | exact .zone | exact .num | exact .call | exact .lambda | exact .deref | exact .dateTime | exact .session | exact .err | refine .bind fun _ => ?_
  | .null  => by rw [CE_conv_null]; repeat' first | exact .build | exact .neg | exact .zone | exact .num | exact .call | exact .lambda | exact .deref | exact .dateTime | exact .session | exact .err | refine .bind fun _ => ?_
  | .interval sg s f t => by rw [CE_conv_interval]; repeat' first | exact .build | exact .neg | exact .zone | exact .num | exact .call | exact .lambda | exact .deref | exact .dateTime | exact .session | exact .err | refine .bind fun _ => ?_
  | .typeCtor n s => by rw [CE_conv_typeCtor]; repeat' first | exact .build | exact .neg | exact .zone | exact .num | exact .call | exact .lambda | exact .deref | exact .dateTime | exact .session | exact .err | refine .bind fun _ => ?_
  | .doublePrecision s => by rw [CE_conv_doublePrecision]; repeat' first | exact .build | exact .neg | exact .zone | exact .num | exact .call | exact .lambda | exact .deref | exact .dateTime | exact .session | exact .err | refine .bind fun _ => ?_
  | .num m t => by rw [CE_conv_num]; repeat' first | exact .build | exact .neg | exact .zone | exact .num | exact .call | exact .lambda | exact .deref | exact .dateTime | exact .session | exact .err | refine .bind fun _ => ?_
  | .bool t => by rw [CE_conv_bool]; repeat' first | exact .build | exact .neg | exact .zone | exact .num | exact .call | exact .lambda | exact .deref | exact .dateTime | exact .session | exact .err | refine .bind fun _ => ?_
  | .str s => by rw [CE_conv_str]; repeat' first | exact .build | exact .neg | exact .zone | exact .num | exact .call | exact .lambda | exact .deref | exact .dateTime | exact .session | exact .err | refine .bind fun _ => ?_
  | .binary u1_ => by rw [CE_conv_binary]; repeat' first | exact .build | exact .neg | exact .zone | exact .num | exact .call | exact .lambda | exact .deref | exact .dateTime | exact .session | exact .err | refine .bind fun _ => ?_
  | .param  => by rw [CE_conv_param]; repeat' first | exact .build | exact .neg | exact .zone | exact .num | exact .call | exact .lambda | exact .deref | exact .dateTime | exact .session | exact .err | refine .bind fun _ => ?_
  | .row es => by rw [CE_conv_row]; repeat' first | exact .build | exact .neg | exact .zone | exact .num | exact .call | exact .lambda | exact .deref | exact .dateTime | exact .session | exact .err | refine .bind fun _ => ?_
  | .rowKw es => by rw [CE_conv_rowKw]; repeat' first | exact .build | exact .neg | exact .zone | exact .num | exact .call | exact .lambda | exact .deref | exact .dateTime | exact .session | exact .err | refine .bind fun _ => ?_
  | .listagg u1_ e sep ov ob => by rw [CE_conv_listagg]; repeat' first | exact .build | exact .neg | exact .zone | exact .num | exact .call | exact .lambda | exact .deref | exact .dateTime | exact .session | exact .err | refine .bind fun _ => ?_
  | .callStar name label fl w => by rw [CE_conv_callStar]; repeat' first | exact .build | exact .neg | exact .zone | exact .num | exact .call | exact .lambda | exact .deref | exact .dateTime | exact .session | exact .err | refine .bind fun _ => ?_
  | .call name u1_ args ob fl ign w => by rw [CE_conv_call]; repeat' first | exact .build | exact .neg | exact .zone | exact .num | exact .call | exact .lambda | exact .deref | exact .dateTime | exact .session | exact .err | refine .bind fun _ => ?_
  | .lam u1_ ids b => by rw [CE_conv_lam]; repeat' first | exact .build | exact .neg | exact .zone | exact .num | exact .call | exact .lambda | exact .deref | exact .dateTime | exact .session | exact .err | refine .bind fun _ => ?_
  | .sub q => by
    intro e h
    rw [CE_conv_sub] at h
    obtain ⟨x, hx, h⟩ := bind_ok h
    obtain ⟨y, hy, h⟩ := bind_ok h
    cases h
    cases x with
    | none => cases hy
    | some x => cases hy; exact made_CQ q _ hx
  | .case v ws e => by rw [CE_conv_case]; repeat' first | exact .build | exact .neg | exact .zone | exact .num | exact .call | exact .lambda | exact .deref | exact .dateTime | exact .session | exact .err | refine .bind fun _ => ?_
  | .cast tr e ty u1_ => by rw [CE_conv_cast]; repeat' first | exact .build | exact .neg | exact .zone | exact .num | exact .call | exact .lambda | exact .deref | exact .dateTime | exact .session | exact .err | refine .bind fun _ => ?_
  | .array es => by rw [CE_conv_array]; repeat' first | exact .build | exact .neg | exact .zone | exact .num | exact .call | exact .lambda | exact .deref | exact .dateTime | exact .session | exact .err | refine .bind fun _ => ?_
  | .subscript v i => by rw [CE_conv_subscript]; repeat' first | exact .build | exact .neg | exact .zone | exact .num | exact .call | exact .lambda | exact .deref | exact .dateTime | exact .session | exact .err | refine .bind fun _ => ?_
  | .col t => by rw [CE_conv_col]; repeat' first | exact .build | exact .neg | exact .zone | exact .num | exact .call | exact .lambda | exact .deref | exact .dateTime | exact .session | exact .err | refine .bind fun _ => ?_
  | .deref v n => by rw [CE_conv_deref]; repeat' first | exact .build | exact .neg | exact .zone | exact .num | exact .call | exact .lambda | exact .deref | exact .dateTime | exact .session | exact .err | refine .bind fun _ => ?_
  | .dateTime t p => by rw [CE_conv_dateTime]; repeat' first | exact .build | exact .neg | exact .zone | exact .num | exact .call | exact .lambda | exact .deref | exact .dateTime | exact .session | exact .err | refine .bind fun _ => ?_
  | .session t => by rw [CE_conv_session]; repeat' first | exact .build | exact .neg | exact .zone | exact .num | exact .call | exact .lambda | exact .deref | exact .dateTime | exact .session | exact .err | refine .bind fun _ => ?_
  | .normalize v f => by rw [CE_conv_normalize]; repeat' first | exact .build | exact .neg | exact .zone | exact .num | exact .call | exact .lambda | exact .deref | exact .dateTime | exact .session | exact .err | refine .bind fun _ => ?_
  | .paren e => made_CE e
  | .exists_ q => by rw [CE_conv_exists_]; repeat' first | exact .build | exact .neg | exact .zone | exact .num | exact .call | exact .lambda | exact .deref | exact .dateTime | exact .session | exact .err | refine .bind fun _ => ?_
  | .position l r => by rw [CE_conv_position]; repeat' first | exact .build | exact .neg | exact .zone | exact .num | exact .call | exact .lambda | exact .deref | exact .dateTime | exact .session | exact .err | refine .bind fun _ => ?_
  | .substring v f n => by rw [CE_conv_substring]; repeat' first | exact .build | exact .neg | exact .zone | exact .num | exact .call | exact .lambda | exact .deref | exact .dateTime | exact .session | exact .err | refine .bind fun _ => ?_
  | .extract t v => by rw [CE_conv_extract]; repeat' first | exact .build | exact .neg | exact .zone | exact .num | exact .call | exact .lambda | exact .deref | exact .dateTime | exact .session | exact .err | refine .bind fun _ => ?_
  | .trimFrom u1_ c v => by rw [CE_conv_trimFrom]; repeat' first | exact .build | exact .neg | exact .zone | exact .num | exact .call | exact .lambda | exact .deref | exact .dateTime | exact .session | exact .err | refine .bind fun _ => ?_
  | .trim v c => by rw [CE_conv_trim]; repeat' first | exact .build | exact .neg | exact .zone | exact .num | exact .call | exact .lambda | exact .deref | exact .dateTime | exact .session | exact .err | refine .bind fun _ => ?_
  | .grouping ns => by rw [CE_conv_grouping]; repeat' first | exact .build | exact .neg | exact .zone | exact .num | exact .call | exact .lambda | exact .deref | exact .dateTime | exact .session | exact .err | refine .bind fun _ => ?_
theorem made_CSorts : ∀ (ss : List CSort) (os : List Ord), CSort.convs ss = .ok os → Ord.checks os = .ok ()
  | [], os, h => by cases h; rfl
  | .mk e o n :: ss, os, h => by
    rw [CSort_convs_cons] at h
    obtain ⟨a, ha, h⟩ := bind_ok h
    obtain ⟨as, has, h⟩ := bind_ok h
    cases h
    obtain ⟨t, ht⟩ := made_CE e a ha
    rw [Ord_checks_cons, ht]
    exact made_CSorts ss as has
theorem made_CQ : ∀ c : CQ, MadeQ c.conv
  | .mk rc w b => by
    intro q h
    rw [CQ_conv_mk] at h
    obtain ⟨x, hx, h⟩ := bind_ok h
    split at h
    · cases h
    · obtain ⟨ns, hns, h⟩ := bind_ok h
      exact MadeQ.with_ (made_CNameds w ns hns) (fun p hp => made_CQN b p (hp ▸ hx)) q h
theorem made_CNameds : ∀ (cs : List CNamed) (ns : List Named), CNamed.convs cs = .ok ns → Named.checks ns = .ok ()
  | [], ns, h => by cases h; rfl
  | .mk n cols q :: cs, ns, h => by
    rw [CNamed_convs_cons] at h
    obtain ⟨_, _, h⟩ := bind_ok h
    obtain ⟨x, hx, h⟩ := bind_ok h
    obtain ⟨y, hy, h⟩ := bind_ok h
    obtain ⟨_, _, h⟩ := bind_ok h
    obtain ⟨as, has, h⟩ := bind_ok h
    cases h
    cases x with
    | none => cases hy
    | some x =>
      cases hy
      obtain ⟨t, ht⟩ := made_CQ q _ hx
      rw [Named_checks_cons, Named_check_mk, Rel_check_query, ht]
      exact made_CNameds cs as has
theorem made_CQN : ∀ c : CQN, MadeQ c.conv
  | .mk t ob off lim => by
    intro q h
    rw [CQN_conv_mk] at h
    obtain ⟨x, hx, h⟩ := bind_ok h
    obtain ⟨os, hos, h⟩ := bind_ok h
    obtain ⟨y, hy, h⟩ := bind_ok h
    obtain ⟨z, hz, h⟩ := bind_ok h
    refine MadeQ.limit (fun p hp => ?_) q h
    refine MadeQ.offset (fun p hp => ?_) p (hp ▸ hz)
    refine MadeQ.order (made_CSorts ob os hos) (fun p hp => ?_) p (hp ▸ hy)
    exact made_body t p (hp ▸ hx)
end

theorem rel_built {x r : Rel} (h : (Rel.build x >>= fun r => Except.ok (some r)) = Except.ok (ε := Err) (some r)) : r.check = .ok () := by
  obtain ⟨_, hb, h⟩ := bind_ok h
  cases h
  obtain ⟨⟨⟩, ht, hb⟩ := bind_ok hb
  cases hb
  exact ht
theorem table_built {ns : List Str} {t : TableRef} (h : tableFromQualifiers ns = .ok t) : t.check = .ok () := by
  unfold tableFromQualifiers at h
  split at h
  · cases h
  · obtain ⟨⟨⟩, ht, h⟩ := bind_ok h
    cases h
    exact ht
theorem made_CR : ∀ (c : CR) (r : Rel), c.conv = .ok (some r) → r.check = .ok ()
  | .cross l r_, r, h => by
    rw [CR_conv_cross] at h
    obtain ⟨_, _, h⟩ := bind_ok h
    obtain ⟨_, _, h⟩ := bind_ok h
    obtain ⟨_, _, h⟩ := bind_ok h
    obtain ⟨_, _, h⟩ := bind_ok h
    exact rel_built h
  | .natural l t r_, r, h => by
    rw [CR_conv_natural] at h
    obtain ⟨_, _, h⟩ := bind_ok h
    obtain ⟨_, _, h⟩ := bind_ok h
    obtain ⟨_, _, h⟩ := bind_ok h
    obtain ⟨_, _, h⟩ := bind_ok h
    exact rel_built h
  | .join l t r_ c, r, h => by
    rw [CR_conv_join] at h
    obtain ⟨_, _, h⟩ := bind_ok h
    obtain ⟨_, _, h⟩ := bind_ok h
    obtain ⟨_, _, h⟩ := bind_ok h
    obtain ⟨_, _, h⟩ := bind_ok h
    obtain ⟨_, _, h⟩ := bind_ok h
    exact rel_built h
  | .sample r_ t e, r, h => by
    rw [CR_conv_sample] at h
    obtain ⟨_, _, h⟩ := bind_ok h
    obtain ⟨_, _, h⟩ := bind_ok h
    obtain ⟨_, _, h⟩ := bind_ok h
    obtain ⟨_, _, h⟩ := bind_ok h
    exact rel_built h
  | .alias r_ u1_ n cols, r, h => by
    rw [CR_conv_alias] at h
    obtain ⟨_, _, h⟩ := bind_ok h
    obtain ⟨_, _, h⟩ := bind_ok h
    obtain ⟨_, _, h⟩ := bind_ok h
    obtain ⟨_, _, h⟩ := bind_ok h
    exact rel_built h
  | .table name, r, h => by
    rw [CR_conv_table] at h
    obtain ⟨_, _, h⟩ := bind_ok h
    obtain ⟨_, ht, h⟩ := bind_ok h
    cases h
    exact table_built ht
  | .sub q, r, h => by
    rw [CR_conv_sub] at h
    obtain ⟨x, hx, h⟩ := bind_ok h
    cases x with
    | none => cases h
    | some x =>
      cases h
      obtain ⟨t, ht⟩ := made_CQ q _ hx
      rw [Rel_check_query, ht]
      rfl
  | .unnest es ord, r, h => by
    rw [CR_conv_unnest] at h
    obtain ⟨_, _, h⟩ := bind_ok h
    exact rel_built h
  | .lateral q, r, h => by
    rw [CR_conv_lateral] at h
    obtain ⟨_, _, h⟩ := bind_ok h
    obtain ⟨_, _, h⟩ := bind_ok h
    exact rel_built h
  | .paren r_, r, h => made_CR r_ r h

theorem read_query {s : Str} {q : Query} (h : queryFromSql s = .ok (some q)) : ∃ t, q.check = .ok t := by
  unfold queryFromSql at h
  split at h
  · exact made_CQ _ q h
  · cases h

theorem each_expr : ∀ (es : List Expr) (ts : List Ty), Expr.checks es = .ok ts → ∀ e ∈ es, ∃ t, e.check = .ok t
  | [], _, _, _, he => nomatch he
  | a :: as, ts, h, e, he => by
    rw [Expr_checks_cons] at h
    obtain ⟨t1, ht1, h⟩ := bind_ok h
    obtain ⟨ts', hts, h⟩ := bind_ok h
    rcases List.mem_cons.1 he with rfl | he
    · exact ⟨t1, ht1⟩
    · exact each_expr as ts' hts e he
theorem each_win : ∀ ws : List (Str × Win), Win.checkNamed ws = .ok () → ∀ p ∈ ws, p.2.check = .ok ()
  | [], _, _, hp => nomatch hp
  | (n, x) :: ws, h, p, hp => by
    rw [Win_checkNamed_cons] at h
    obtain ⟨⟨⟩, hx, h⟩ := bind_ok h
    rcases List.mem_cons.1 hp with rfl | hp
    · exact hx
    · exact each_win ws h p hp
theorem each_key : ∀ ks : List Ord, Ord.checks ks = .ok () → ∀ k ∈ ks, ∃ v x y t, k = .mk v x y ∧ v.check = .ok t
  | [], _, _, hk => nomatch hk
  | .mk v x y :: ks, h, k, hk => by
    rw [Ord_checks_cons] at h
    obtain ⟨t1, ht1, h⟩ := bind_ok h
    rcases List.mem_cons.1 hk with rfl | hk
    · exact ⟨v, x, y, t1, rfl, ht1⟩
    · exact each_key ks h k hk
theorem each_named : ∀ ns : List Named, Named.checks ns = .ok () → ∀ n ∈ ns, n.check = .ok ()
  | [], _, _, hn => nomatch hn
  | m :: ns, h, n, hn => by
    rw [Named_checks_cons] at h
    obtain ⟨⟨⟩, hx, h⟩ := bind_ok h
    rcases List.mem_cons.1 hn with rfl | hn
    · exact hx
    · exact each_named ns h n hn

end Treeno
