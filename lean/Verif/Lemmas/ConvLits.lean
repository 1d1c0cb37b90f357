import Verif.Spec.ReadLits
import Verif.Lemmas.LitsMap
import Verif.Lemmas.ConvMean
/-! # The constants of a tree that was read -/
set_option linter.unusedVariables false
namespace Treeno
open Spec

theorem Spec.ReadLits.nil : ReadLits [] := fun _ h => nomatch h
theorem Spec.ReadLits.app {a b : List (Option Scalar × Ty)} (ha : ReadLits a) (hb : ReadLits b) : ReadLits (a ++ b) :=
  fun p hp => (List.mem_append.1 hp).elim (ha p) (hb p)
theorem Spec.ReadLits.l {a b : List (Option Scalar × Ty)} (h : ReadLits (a ++ b)) : ReadLits a := fun p hp => h p (List.mem_append_left _ hp)
theorem Spec.ReadLits.r {a b : List (Option Scalar × Ty)} (h : ReadLits (a ++ b)) : ReadLits b := fun p hp => h p (List.mem_append_right _ hp)
theorem one_lit {p : Option Scalar × Ty} (h : ReadLit p) : ReadLits [p] := fun q hq => by
  rw [List.mem_singleton] at hq; exact hq ▸ h

def litsO {α : Type} (f : α → List (Option Scalar × Ty)) : Option α → List (Option Scalar × Ty)
  | none => []
  | some a => f a
def frameLits (f : FrameType × Bound × Bound) : List (Option Scalar × Ty) := litsBound f.2.1 ++ litsBound f.2.2
def relsLits : List (Option Rel) → List (Option Scalar × Ty)
  | [] => []
  | r :: rs => litsO litsRel r ++ relsLits rs

theorem drop_lits {b : Bool} {x : Except Err (Option Expr)} {c : Option Expr} (hx : ∀ e, x = .ok e → ReadLits (litsExprOpt e))
    (h : dropNone b x = .ok c) : ReadLits (litsExprOpt c) := by
  rcases drop_inv h with h | ⟨_, h, _⟩
  · exact hx _ h
  · subst h; exact .nil
theorem negIf_lits {n : Bool} {x e : Expr} (h : negIf n x = .ok e) (hx : ReadLits (litsExpr x)) : ReadLits (litsExpr e) := by
  cases n
  · rw [build_inv (h : Expr.build x = _)]; exact hx
  · rw [build_inv (h : Expr.build (.not x) = _)]; exact hx
theorem order_args {f : Agg} {as : List Expr} (h : ReadLits (litsExprs as)) : ReadLits (litsExprs (aggArgOrder f as)) := by
  unfold aggArgOrder
  split
  · exact h.l.app (h.r.r.l.app (h.r.l.app .nil))
  · exact h
theorem call_lits {ns : List Str} {args : List Expr} {ob : List Ord} {fl : Option Expr} {ign : Option Bool} {w : Option Win} {e : Expr}
    (h : callOf ns args ob fl ign w = .ok e) (ha : ReadLits (litsExprs args)) (ho : ReadLits (litsOrds ob))
    (hf : ReadLits (litsExprOpt fl)) (hw : ReadLits (litsWinOpt w)) : ReadLits (litsExpr e) := by
  unfold callOf at h
  split at h
  · split at h
    · split at h
      · exact nomatch h
      · split at h
        · rw [build_inv h]; exact ha
        · exact nomatch h
    · split at h
      · rw [build_inv h]; exact (order_args ha).app (ho.app (hf.app hw))
      · have hs := special_of h
        generalize upper _ = m at hs
        cases hs with
        | listagg => exact ha.l.app ho
        | normalize => exact ha.l
        | word hm => rcases word_forms hm with ⟨f, rfl⟩ | ⟨f, rfl⟩ <;> exact .nil
  · exact nomatch h
theorem lambda_lits {ins : List Str} {e r : Expr} (h : lambdaOf ins e = .ok r) (he : ReadLits (litsExpr e)) : ReadLits (litsExpr r) := by
  rw [(Props.C40_binds_partial ins e r h).1]
  show ReadLits (litsExpr (mapExpr (bindNode ins) id e))
  rw [lm_Expr (bind_lits ins)]; exact he
theorem deref_lits {b e : Expr} {n : Str} (h : derefOf b n = .ok e) (hb : ReadLits (litsExpr b)) : ReadLits (litsExpr e) := by
  unfold derefOf at h
  split at h
  · split at h
    · exact nomatch h
    · rw [build_inv h]; exact .nil
  · exact nomatch h
  · rw [build_inv h]; exact hb
theorem starOf_lits {b e : Expr} (h : starOfBase b = .ok e) (hb : ReadLits (litsExpr b)) : ReadLits (litsExpr e) := by
  unfold starOfBase at h
  split at h
  · rw [build_inv h]; exact .nil
  · rw [build_inv h]; exact .nil
  · rw [build_inv h]; exact hb
theorem dateTime_lits {t : Tok} {p : Option Tok} {e : Expr} (h : dateTimeOf t p = .ok e) : ReadLits (litsExpr e) := by
  unfold dateTimeOf at h
  dsimp only at h
  repeat' split at h
  all_goals first | (rw [build_inv h]; exact .nil) | exact nomatch h
theorem session_lits {t : Tok} {e : Expr} (h : sessionOf t = .ok e) : ReadLits (litsExpr e) := by
  unfold sessionOf at h
  repeat' split at h
  all_goals first | (rw [build_inv h]; exact .nil) | exact nomatch h
theorem num_lits {m : Bool} {t : Tok} {e : Expr} (h : numLit m t = .ok e) : ReadLits (litsExpr e) := by
  unfold numLit at h
  split at h
  · rw [build_inv h]; exact one_lit (.int _)
  · split at h
    · obtain ⟨ty, hty, h⟩ := bind_ok h
      rw [build_inv h]; exact one_lit (.dec m hty)
    · exact nomatch h
  · rw [build_inv h]; exact one_lit (.float _)
  · exact nomatch h
theorem alias_lits {v e : Expr} {n : Option Str} (h : aliasOf v n = .ok e) (hv : ReadLits (litsExpr v)) : ReadLits (litsExpr e) := by
  cases n with
  | none => rw [← Except.ok.inj h]; exact hv
  | some a => rw [build_inv h]; exact hv
theorem starAliases_lits {s e : Expr} {cs : List Str} (h : starAliases s cs = .ok e) (hs : ReadLits (litsExpr s)) :
    ReadLits (litsExpr e) := by
  unfold starAliases at h
  split at h
  · rw [← Except.ok.inj h]; exact hs
  · rw [build_inv h]; exact hs
theorem order_lits {ob : List Ord} {q x : Option Query} (h : orderQuery ob q = .ok x) (ho : ReadLits (litsOrds ob))
    (hq : ReadLits (litsO litsQuery q)) : ReadLits (litsO litsQuery x) := by
  unfold orderQuery at h
  split at h
  · rw [← Except.ok.inj h]; exact hq
  · obtain ⟨y, hy, h⟩ := bind_ok h
    have hn := noneIs_inv hy
    subst hn
    rw [← Except.ok.inj h]
    cases y with | mk b off lim ob' w => exact ReadLits.app (ReadLits.l hq) (ho.app (ReadLits.r (ReadLits.r hq)))
theorem offset_lits {off : Option (Tok × Option Tok)} {q x : Option Query} (h : offsetQuery off q = .ok x)
    (hq : ReadLits (litsO litsQuery q)) : ReadLits (litsO litsQuery x) := by
  unfold offsetQuery at h
  split at h
  · rw [← Except.ok.inj h]; exact hq
  · obtain ⟨n, _, h⟩ := bind_ok h
    obtain ⟨y, hy, h⟩ := bind_ok h
    have hn := noneIs_inv hy
    subst hn
    rw [← Except.ok.inj h]
    cases y with | mk b off lim ob' w => exact hq
theorem limit_lits {lim : CLimit} {q x : Option Query} (h : limitQuery lim q = .ok x)
    (hq : ReadLits (litsO litsQuery q)) : ReadLits (litsO litsQuery x) := by
  unfold limitQuery at h
  split at h
  · obtain ⟨n, _, h⟩ := bind_ok h
    obtain ⟨y, hy, h⟩ := bind_ok h
    have hn := noneIs_inv hy
    subst hn
    rw [← Except.ok.inj h]
    cases y with | mk b off lim ob' w => exact hq
  · rw [← Except.ok.inj h]; exact hq
theorem with_lits {ns : List Named} {q x : Option Query} (h : withQuery ns q = .ok x) (hn : ReadLits (litsNameds ns))
    (hq : ReadLits (litsO litsQuery q)) : ReadLits (litsO litsQuery x) := by
  unfold withQuery at h
  split at h
  · rw [← Except.ok.inj h]; exact hq
  · obtain ⟨y, hy, h⟩ := bind_ok h
    have hz := noneIs_inv hy
    subst hz
    rw [← Except.ok.inj h]
    cases y with | mk b off lim ob' w => exact ReadLits.app (ReadLits.l hq) (ReadLits.app (ReadLits.l (ReadLits.r hq)) hn)
theorem from_lits {rs : List (Option Rel)} {f : Option Rel} (h : fromOf rs = .ok f) (hr : ReadLits (relsLits rs)) :
    ReadLits (litsRelOpt f) := by
  unfold fromOf at h
  split at h
  · rw [← Except.ok.inj h]; exact .nil
  · rename_i r
    have hz := Except.ok.inj h
    subst hz
    cases r with
    | none => exact .nil
    | some r => exact ReadLits.l hr
  · exact nomatch h
theorem groupBy_lits {d : Bool} {gs : List Grp} (h : ReadLits (litsGrps gs)) : ReadLits (litsGroupByOpt (groupByOf d gs)) := by
  unfold groupByOf
  split
  · exact .nil
  · exact h
theorem dictSet_lits {k : Str} {w : Win} (hw : ReadLits (litsWin w)) : ∀ {l}, ReadLits (litsNamedWins l) → ReadLits (litsNamedWins (dictSet k w l))
  | [], _ => hw.app .nil
  | (k', w') :: r, h => by
    unfold dictSet
    split
    · exact hw.app (ReadLits.r h)
    · exact ReadLits.app (ReadLits.l h) (dictSet_lits hw (ReadLits.r h))
theorem dictFold_lits : ∀ (l d : List (Str × Win)), ReadLits (litsNamedWins l) → ReadLits (litsNamedWins d) →
    ReadLits (litsNamedWins (l.foldl (fun d p => dictSet p.1 p.2 d) d))
  | [], _, _, hd => hd
  | (k, w) :: r, d, h, hd => dictFold_lits r _ (ReadLits.r h) (dictSet_lits (ReadLits.l h) hd)
theorem dict_lits {l : List (Str × Win)} (h : ReadLits (litsNamedWins l)) : ReadLits (litsNamedWins (dictOf l)) :=
  dictFold_lits l [] h .nil
theorem sub_lits {q : Option Query} (h : ReadLits (litsO litsQuery q)) : ReadLits (litsO litsRel (q.map .query)) := by
  cases q with
  | none => exact .nil
  | some q => exact h
theorem spec_lits {is : List Expr} {f : Option Rel} {w h : Option Expr} {g : Option GroupBy} {d : Bool} {ws : List (Str × Win)}
    (h1 : ReadLits (litsExprs is)) (h2 : ReadLits (litsRelOpt f)) (h3 : ReadLits (litsExprOpt w)) (h4 : ReadLits (litsGroupByOpt g))
    (h5 : ReadLits (litsExprOpt h)) (h6 : ReadLits (litsNamedWins ws)) :
    ReadLits (litsO litsQuery (some (.mk (.select is f w g h d ws) none none [] []))) :=
  ReadLits.app (ReadLits.app h1 (ReadLits.app h2 (ReadLits.app h3 (ReadLits.app h4 (ReadLits.app h5 h6))))) (ReadLits.app .nil .nil)

syntax "lits" : tactic
set_option hygiene false in
macro_rules | `(tactic| lits) => `(tactic| (repeat' first
    | exact ReadLits.nil
    | assumption
    | refine ReadLits.app ?_ ?_))

mutual
theorem rl_expr : ∀ (c : CE) (e : Expr), CE.conv c = .ok e → ReadLits (litsExpr e)
  | .or_ l r, e_, h => by
    rw [CE_conv_or_] at h
    obtain ⟨a, h1, k1⟩ := bind_ok h
    first | have g1 := rl_expr _ _ h1 | have g1 := rl_bound _ _ h1 | have g1 := rl_frame _ _ h1 | have g1 := rl_win _ _ h1 | have g1 := rl_set _ _ h1 | have g1 := rl_grp _ _ h1 | have g1 := rl_item _ _ h1 | have g1 := rl_query _ _ h1 | have g1 := rl_noWith _ _ h1 | have g1 := rl_term _ _ h1 | have g1 := rl_rel _ _ h1 | have g1 := rl_crit _ _ h1 | skip
    obtain ⟨b, h2, k2⟩ := bind_ok k1
    first | have g2 := rl_expr _ _ h2 | have g2 := rl_bound _ _ h2 | have g2 := rl_frame _ _ h2 | have g2 := rl_win _ _ h2 | have g2 := rl_set _ _ h2 | have g2 := rl_grp _ _ h2 | have g2 := rl_item _ _ h2 | have g2 := rl_query _ _ h2 | have g2 := rl_noWith _ _ h2 | have g2 := rl_term _ _ h2 | have g2 := rl_rel _ _ h2 | have g2 := rl_crit _ _ h2 | skip
    have hz := build_inv k2; subst hz; lits
  | .and_ l r, e_, h => by
    rw [CE_conv_and_] at h
    obtain ⟨a, h1, k1⟩ := bind_ok h
    first | have g1 := rl_expr _ _ h1 | have g1 := rl_bound _ _ h1 | have g1 := rl_frame _ _ h1 | have g1 := rl_win _ _ h1 | have g1 := rl_set _ _ h1 | have g1 := rl_grp _ _ h1 | have g1 := rl_item _ _ h1 | have g1 := rl_query _ _ h1 | have g1 := rl_noWith _ _ h1 | have g1 := rl_term _ _ h1 | have g1 := rl_rel _ _ h1 | have g1 := rl_crit _ _ h1 | skip
    obtain ⟨b, h2, k2⟩ := bind_ok k1
    first | have g2 := rl_expr _ _ h2 | have g2 := rl_bound _ _ h2 | have g2 := rl_frame _ _ h2 | have g2 := rl_win _ _ h2 | have g2 := rl_set _ _ h2 | have g2 := rl_grp _ _ h2 | have g2 := rl_item _ _ h2 | have g2 := rl_query _ _ h2 | have g2 := rl_noWith _ _ h2 | have g2 := rl_term _ _ h2 | have g2 := rl_rel _ _ h2 | have g2 := rl_crit _ _ h2 | skip
    have hz := build_inv k2; subst hz; lits
  | .not_ v, e_, h => by
    rw [CE_conv_not_] at h
    obtain ⟨e, h1, k1⟩ := bind_ok h
    first | have g1 := rl_expr _ _ h1 | have g1 := rl_bound _ _ h1 | have g1 := rl_frame _ _ h1 | have g1 := rl_win _ _ h1 | have g1 := rl_set _ _ h1 | have g1 := rl_grp _ _ h1 | have g1 := rl_item _ _ h1 | have g1 := rl_query _ _ h1 | have g1 := rl_noWith _ _ h1 | have g1 := rl_term _ _ h1 | have g1 := rl_rel _ _ h1 | have g1 := rl_crit _ _ h1 | skip
    have hz := build_inv k1; subst hz; lits
  | .cmp op l r, e_, h => by
    rw [CE_conv_cmp] at h
    obtain ⟨a, h1, k1⟩ := bind_ok h
    first | have g1 := rl_expr _ _ h1 | have g1 := rl_bound _ _ h1 | have g1 := rl_frame _ _ h1 | have g1 := rl_win _ _ h1 | have g1 := rl_set _ _ h1 | have g1 := rl_grp _ _ h1 | have g1 := rl_item _ _ h1 | have g1 := rl_query _ _ h1 | have g1 := rl_noWith _ _ h1 | have g1 := rl_term _ _ h1 | have g1 := rl_rel _ _ h1 | have g1 := rl_crit _ _ h1 | skip
    obtain ⟨b, h2, k2⟩ := bind_ok k1
    first | have g2 := rl_expr _ _ h2 | have g2 := rl_bound _ _ h2 | have g2 := rl_frame _ _ h2 | have g2 := rl_win _ _ h2 | have g2 := rl_set _ _ h2 | have g2 := rl_grp _ _ h2 | have g2 := rl_item _ _ h2 | have g2 := rl_query _ _ h2 | have g2 := rl_noWith _ _ h2 | have g2 := rl_term _ _ h2 | have g2 := rl_rel _ _ h2 | have g2 := rl_crit _ _ h2 | skip
    obtain ⟨o, h3, k3⟩ := bind_ok k2
    have hz := build_inv k3; subst hz; lits
  | .between neg v l u, e_, h => by
    rw [CE_conv_between] at h
    obtain ⟨a, h1, k1⟩ := bind_ok h
    first | have g1 := rl_expr _ _ h1 | have g1 := rl_bound _ _ h1 | have g1 := rl_frame _ _ h1 | have g1 := rl_win _ _ h1 | have g1 := rl_set _ _ h1 | have g1 := rl_grp _ _ h1 | have g1 := rl_item _ _ h1 | have g1 := rl_query _ _ h1 | have g1 := rl_noWith _ _ h1 | have g1 := rl_term _ _ h1 | have g1 := rl_rel _ _ h1 | have g1 := rl_crit _ _ h1 | skip
    obtain ⟨b, h2, k2⟩ := bind_ok k1
    first | have g2 := rl_expr _ _ h2 | have g2 := rl_bound _ _ h2 | have g2 := rl_frame _ _ h2 | have g2 := rl_win _ _ h2 | have g2 := rl_set _ _ h2 | have g2 := rl_grp _ _ h2 | have g2 := rl_item _ _ h2 | have g2 := rl_query _ _ h2 | have g2 := rl_noWith _ _ h2 | have g2 := rl_term _ _ h2 | have g2 := rl_rel _ _ h2 | have g2 := rl_crit _ _ h2 | skip
    obtain ⟨c, h3, k3⟩ := bind_ok k2
    first | have g3 := rl_expr _ _ h3 | have g3 := rl_bound _ _ h3 | have g3 := rl_frame _ _ h3 | have g3 := rl_win _ _ h3 | have g3 := rl_set _ _ h3 | have g3 := rl_grp _ _ h3 | have g3 := rl_item _ _ h3 | have g3 := rl_query _ _ h3 | have g3 := rl_noWith _ _ h3 | have g3 := rl_term _ _ h3 | have g3 := rl_rel _ _ h3 | have g3 := rl_crit _ _ h3 | skip
    refine negIf_lits k3 ?_; lits
  | .inList neg v es, e_, h => by
    rw [CE_conv_inList] at h
    obtain ⟨a, h1, k1⟩ := bind_ok h
    first | have g1 := rl_expr _ _ h1 | have g1 := rl_bound _ _ h1 | have g1 := rl_frame _ _ h1 | have g1 := rl_win _ _ h1 | have g1 := rl_set _ _ h1 | have g1 := rl_grp _ _ h1 | have g1 := rl_item _ _ h1 | have g1 := rl_query _ _ h1 | have g1 := rl_noWith _ _ h1 | have g1 := rl_term _ _ h1 | have g1 := rl_rel _ _ h1 | have g1 := rl_crit _ _ h1 | skip
    obtain ⟨bs, h2, k2⟩ := bind_ok k1
    have g2 := rl_exprs _ _ h2
    refine negIf_lits k2 ?_; lits
  | .inSub neg v q, e_, h => by
    rw [CE_conv_inSub] at h
    obtain ⟨a, h1, k1⟩ := bind_ok h
    first | have g1 := rl_expr _ _ h1 | have g1 := rl_bound _ _ h1 | have g1 := rl_frame _ _ h1 | have g1 := rl_win _ _ h1 | have g1 := rl_set _ _ h1 | have g1 := rl_grp _ _ h1 | have g1 := rl_item _ _ h1 | have g1 := rl_query _ _ h1 | have g1 := rl_noWith _ _ h1 | have g1 := rl_term _ _ h1 | have g1 := rl_rel _ _ h1 | have g1 := rl_crit _ _ h1 | skip
    obtain ⟨b, h2, k2⟩ := bind_ok k1
    first | have g2 := rl_expr _ _ h2 | have g2 := rl_bound _ _ h2 | have g2 := rl_frame _ _ h2 | have g2 := rl_win _ _ h2 | have g2 := rl_set _ _ h2 | have g2 := rl_grp _ _ h2 | have g2 := rl_item _ _ h2 | have g2 := rl_query _ _ h2 | have g2 := rl_noWith _ _ h2 | have g2 := rl_term _ _ h2 | have g2 := rl_rel _ _ h2 | have g2 := rl_crit _ _ h2 | skip
    obtain ⟨b', h3, k3⟩ := bind_ok k2
    have hn3 := noneIs_inv h3; subst hn3
    refine negIf_lits k3 ?_; lits
  | .like neg v p esc, e_, h => by
    rw [CE_conv_like] at h
    obtain ⟨a, h1, k1⟩ := bind_ok h
    first | have g1 := rl_expr _ _ h1 | have g1 := rl_bound _ _ h1 | have g1 := rl_frame _ _ h1 | have g1 := rl_win _ _ h1 | have g1 := rl_set _ _ h1 | have g1 := rl_grp _ _ h1 | have g1 := rl_item _ _ h1 | have g1 := rl_query _ _ h1 | have g1 := rl_noWith _ _ h1 | have g1 := rl_term _ _ h1 | have g1 := rl_rel _ _ h1 | have g1 := rl_crit _ _ h1 | skip
    obtain ⟨c, h2, k2⟩ := bind_ok k1
    have g2 := drop_lits (fun e he => rl_opt _ e he) h2
    obtain ⟨b, h3, k3⟩ := bind_ok k2
    first | have g3 := rl_expr _ _ h3 | have g3 := rl_bound _ _ h3 | have g3 := rl_frame _ _ h3 | have g3 := rl_win _ _ h3 | have g3 := rl_set _ _ h3 | have g3 := rl_grp _ _ h3 | have g3 := rl_item _ _ h3 | have g3 := rl_query _ _ h3 | have g3 := rl_noWith _ _ h3 | have g3 := rl_term _ _ h3 | have g3 := rl_rel _ _ h3 | have g3 := rl_crit _ _ h3 | skip
    refine negIf_lits k3 ?_; lits
  | .isNull neg v, e_, h => by
    rw [CE_conv_isNull] at h
    obtain ⟨a, h1, k1⟩ := bind_ok h
    first | have g1 := rl_expr _ _ h1 | have g1 := rl_bound _ _ h1 | have g1 := rl_frame _ _ h1 | have g1 := rl_win _ _ h1 | have g1 := rl_set _ _ h1 | have g1 := rl_grp _ _ h1 | have g1 := rl_item _ _ h1 | have g1 := rl_query _ _ h1 | have g1 := rl_noWith _ _ h1 | have g1 := rl_term _ _ h1 | have g1 := rl_rel _ _ h1 | have g1 := rl_crit _ _ h1 | skip
    refine negIf_lits k1 ?_; lits
  | .distinct neg l r, e_, h => by
    rw [CE_conv_distinct] at h
    obtain ⟨a, h1, k1⟩ := bind_ok h
    first | have g1 := rl_expr _ _ h1 | have g1 := rl_bound _ _ h1 | have g1 := rl_frame _ _ h1 | have g1 := rl_win _ _ h1 | have g1 := rl_set _ _ h1 | have g1 := rl_grp _ _ h1 | have g1 := rl_item _ _ h1 | have g1 := rl_query _ _ h1 | have g1 := rl_noWith _ _ h1 | have g1 := rl_term _ _ h1 | have g1 := rl_rel _ _ h1 | have g1 := rl_crit _ _ h1 | skip
    obtain ⟨b, h2, k2⟩ := bind_ok k1
    first | have g2 := rl_expr _ _ h2 | have g2 := rl_bound _ _ h2 | have g2 := rl_frame _ _ h2 | have g2 := rl_win _ _ h2 | have g2 := rl_set _ _ h2 | have g2 := rl_grp _ _ h2 | have g2 := rl_item _ _ h2 | have g2 := rl_query _ _ h2 | have g2 := rl_noWith _ _ h2 | have g2 := rl_term _ _ h2 | have g2 := rl_rel _ _ h2 | have g2 := rl_crit _ _ h2 | skip
    refine negIf_lits k2 ?_; lits
  | .quantified _ _ l _, e_, h => by
    rw [CE_conv_quantified] at h
    obtain ⟨_, h1, k1⟩ := bind_ok h
    first | have g1 := rl_expr _ _ h1 | have g1 := rl_bound _ _ h1 | have g1 := rl_frame _ _ h1 | have g1 := rl_win _ _ h1 | have g1 := rl_set _ _ h1 | have g1 := rl_grp _ _ h1 | have g1 := rl_item _ _ h1 | have g1 := rl_query _ _ h1 | have g1 := rl_noWith _ _ h1 | have g1 := rl_term _ _ h1 | have g1 := rl_rel _ _ h1 | have g1 := rl_crit _ _ h1 | skip
    exact nomatch k1
  | .concat l r, e_, h => by
    rw [CE_conv_concat] at h
    obtain ⟨a, h1, k1⟩ := bind_ok h
    first | have g1 := rl_expr _ _ h1 | have g1 := rl_bound _ _ h1 | have g1 := rl_frame _ _ h1 | have g1 := rl_win _ _ h1 | have g1 := rl_set _ _ h1 | have g1 := rl_grp _ _ h1 | have g1 := rl_item _ _ h1 | have g1 := rl_query _ _ h1 | have g1 := rl_noWith _ _ h1 | have g1 := rl_term _ _ h1 | have g1 := rl_rel _ _ h1 | have g1 := rl_crit _ _ h1 | skip
    obtain ⟨b, h2, k2⟩ := bind_ok k1
    first | have g2 := rl_expr _ _ h2 | have g2 := rl_bound _ _ h2 | have g2 := rl_frame _ _ h2 | have g2 := rl_win _ _ h2 | have g2 := rl_set _ _ h2 | have g2 := rl_grp _ _ h2 | have g2 := rl_item _ _ h2 | have g2 := rl_query _ _ h2 | have g2 := rl_noWith _ _ h2 | have g2 := rl_term _ _ h2 | have g2 := rl_rel _ _ h2 | have g2 := rl_crit _ _ h2 | skip
    have hz := build_inv k2; subst hz; lits
  | .arith op l r, e_, h => by
    rw [CE_conv_arith] at h
    obtain ⟨a, h1, k1⟩ := bind_ok h
    first | have g1 := rl_expr _ _ h1 | have g1 := rl_bound _ _ h1 | have g1 := rl_frame _ _ h1 | have g1 := rl_win _ _ h1 | have g1 := rl_set _ _ h1 | have g1 := rl_grp _ _ h1 | have g1 := rl_item _ _ h1 | have g1 := rl_query _ _ h1 | have g1 := rl_noWith _ _ h1 | have g1 := rl_term _ _ h1 | have g1 := rl_rel _ _ h1 | have g1 := rl_crit _ _ h1 | skip
    obtain ⟨b, h2, k2⟩ := bind_ok k1
    first | have g2 := rl_expr _ _ h2 | have g2 := rl_bound _ _ h2 | have g2 := rl_frame _ _ h2 | have g2 := rl_win _ _ h2 | have g2 := rl_set _ _ h2 | have g2 := rl_grp _ _ h2 | have g2 := rl_item _ _ h2 | have g2 := rl_query _ _ h2 | have g2 := rl_noWith _ _ h2 | have g2 := rl_term _ _ h2 | have g2 := rl_rel _ _ h2 | have g2 := rl_crit _ _ h2 | skip
    obtain ⟨o, h3, k3⟩ := bind_ok k2
    have hz := build_inv k3; subst hz; lits
  | .sign op v, e_, h => by
    rw [CE_conv_sign] at h
    obtain ⟨a, h1, k1⟩ := bind_ok h
    first | have g1 := rl_expr _ _ h1 | have g1 := rl_bound _ _ h1 | have g1 := rl_frame _ _ h1 | have g1 := rl_win _ _ h1 | have g1 := rl_set _ _ h1 | have g1 := rl_grp _ _ h1 | have g1 := rl_item _ _ h1 | have g1 := rl_query _ _ h1 | have g1 := rl_noWith _ _ h1 | have g1 := rl_term _ _ h1 | have g1 := rl_rel _ _ h1 | have g1 := rl_crit _ _ h1 | skip
    obtain ⟨o, h2, k2⟩ := bind_ok k1
    have hz := build_inv k2; subst hz; lits
  | .atZone v z, e_, h => by
    rw [CE_conv_atZone] at h
    obtain ⟨_, h1, k1⟩ := bind_ok h
    first | have g1 := rl_expr _ _ h1 | have g1 := rl_bound _ _ h1 | have g1 := rl_frame _ _ h1 | have g1 := rl_win _ _ h1 | have g1 := rl_set _ _ h1 | have g1 := rl_grp _ _ h1 | have g1 := rl_item _ _ h1 | have g1 := rl_query _ _ h1 | have g1 := rl_noWith _ _ h1 | have g1 := rl_term _ _ h1 | have g1 := rl_rel _ _ h1 | have g1 := rl_crit _ _ h1 | skip
    obtain ⟨x_, y_, w_, rfl⟩ := zone_inv k1; exact ReadLits.nil
  | .null, e_, h => by
    rw [CE_conv_null] at h
    have hz := build_inv h; subst hz; exact one_lit (.null)
  | .interval sg s f t, e_, h => by
    rw [CE_conv_interval] at h
    obtain ⟨v, h1, k1⟩ := bind_ok h
    first | have g1 := rl_expr _ _ h1 | have g1 := rl_bound _ _ h1 | have g1 := rl_frame _ _ h1 | have g1 := rl_win _ _ h1 | have g1 := rl_set _ _ h1 | have g1 := rl_grp _ _ h1 | have g1 := rl_item _ _ h1 | have g1 := rl_query _ _ h1 | have g1 := rl_noWith _ _ h1 | have g1 := rl_term _ _ h1 | have g1 := rl_rel _ _ h1 | have g1 := rl_crit _ _ h1 | skip
    have hz := build_inv k1; subst hz; lits
  | .typeCtor n s, e_, h => by
    rw [CE_conv_typeCtor] at h
    obtain ⟨v, h1, k1⟩ := bind_ok h
    first | have g1 := rl_expr _ _ h1 | have g1 := rl_bound _ _ h1 | have g1 := rl_frame _ _ h1 | have g1 := rl_win _ _ h1 | have g1 := rl_set _ _ h1 | have g1 := rl_grp _ _ h1 | have g1 := rl_item _ _ h1 | have g1 := rl_query _ _ h1 | have g1 := rl_noWith _ _ h1 | have g1 := rl_term _ _ h1 | have g1 := rl_rel _ _ h1 | have g1 := rl_crit _ _ h1 | skip
    obtain ⟨t, h2, k2⟩ := bind_ok k1
    have hz := build_inv k2; subst hz; lits
  | .doublePrecision s, e_, h => by
    rw [CE_conv_doublePrecision] at h
    obtain ⟨_, h1, k1⟩ := bind_ok h
    first | have g1 := rl_expr _ _ h1 | have g1 := rl_bound _ _ h1 | have g1 := rl_frame _ _ h1 | have g1 := rl_win _ _ h1 | have g1 := rl_set _ _ h1 | have g1 := rl_grp _ _ h1 | have g1 := rl_item _ _ h1 | have g1 := rl_query _ _ h1 | have g1 := rl_noWith _ _ h1 | have g1 := rl_term _ _ h1 | have g1 := rl_rel _ _ h1 | have g1 := rl_crit _ _ h1 | skip
    exact nomatch k1
  | .num m t, e_, h => by
    rw [CE_conv_num] at h
    exact num_lits h
  | .bool t, e_, h => by
    rw [CE_conv_bool] at h
    have hz := build_inv h; subst hz; exact one_lit (.bool _)
  | .str s, e_, h => by
    rw [CE_conv_str] at h
    obtain ⟨v, h1, k1⟩ := bind_ok h
    first | have g1 := rl_expr _ _ h1 | have g1 := rl_bound _ _ h1 | have g1 := rl_frame _ _ h1 | have g1 := rl_win _ _ h1 | have g1 := rl_set _ _ h1 | have g1 := rl_grp _ _ h1 | have g1 := rl_item _ _ h1 | have g1 := rl_query _ _ h1 | have g1 := rl_noWith _ _ h1 | have g1 := rl_term _ _ h1 | have g1 := rl_rel _ _ h1 | have g1 := rl_crit _ _ h1 | skip
    obtain ⟨ty, h2, k2⟩ := bind_ok k1
    have hz := build_inv k2; subst hz; exact one_lit (.str h2)
  | .binary _, e_, h => by
    rw [CE_conv_binary] at h
    exact nomatch h
  | .param, e_, h => by
    rw [CE_conv_param] at h
    exact nomatch h
  | .row es, e_, h => by
    rw [CE_conv_row] at h
    obtain ⟨vs, h1, k1⟩ := bind_ok h
    have g1 := rl_exprs _ _ h1
    have hz := build_inv k1; subst hz; lits
  | .rowKw es, e_, h => by
    rw [CE_conv_rowKw] at h
    obtain ⟨vs, h1, k1⟩ := bind_ok h
    have g1 := rl_exprs _ _ h1
    have hz := build_inv k1; subst hz; lits
  | .listagg _ e sep ov ob, e_, h => by
    rw [CE_conv_listagg] at h
    obtain ⟨s, h1, k1⟩ := bind_ok h
    obtain ⟨f, h2, k2⟩ := bind_ok k1
    obtain ⟨o, h3, k3⟩ := bind_ok k2
    have g3 := rl_sorts _ _ h3
    obtain ⟨v, h4, k4⟩ := bind_ok k3
    first | have g4 := rl_expr _ _ h4 | have g4 := rl_bound _ _ h4 | have g4 := rl_frame _ _ h4 | have g4 := rl_win _ _ h4 | have g4 := rl_set _ _ h4 | have g4 := rl_grp _ _ h4 | have g4 := rl_item _ _ h4 | have g4 := rl_query _ _ h4 | have g4 := rl_noWith _ _ h4 | have g4 := rl_term _ _ h4 | have g4 := rl_rel _ _ h4 | have g4 := rl_crit _ _ h4 | skip
    have hz := build_inv k4; subst hz; lits
  | .callStar name label fl w, e_, h => by
    rw [CE_conv_callStar] at h
    obtain ⟨n, h1, k1⟩ := bind_ok h
    obtain ⟨w', h2, k2⟩ := bind_ok k1
    have g2 := rl_wopt _ _ h2
    obtain ⟨f, h3, k3⟩ := bind_ok k2
    have g3 := rl_opt _ _ h3
    obtain ⟨l, h4, k4⟩ := bind_ok k3
    exact call_lits k4 (by lits) (by lits) (by lits) (by lits)
  | .call name _ args ob fl ign w, e_, h => by
    rw [CE_conv_call] at h
    obtain ⟨n, h1, k1⟩ := bind_ok h
    obtain ⟨w', h2, k2⟩ := bind_ok k1
    have g2 := rl_wopt _ _ h2
    obtain ⟨o, h3, k3⟩ := bind_ok k2
    have g3 := rl_sorts _ _ h3
    obtain ⟨f, h4, k4⟩ := bind_ok k3
    have g4 := rl_opt _ _ h4
    obtain ⟨as_, h5, k5⟩ := bind_ok k4
    have g5 := rl_exprs _ _ h5
    exact call_lits k5 (by lits) (by lits) (by lits) (by lits)
  | .lam _ ids b, e_, h => by
    rw [CE_conv_lam] at h
    obtain ⟨ns, h1, k1⟩ := bind_ok h
    obtain ⟨e, h2, k2⟩ := bind_ok k1
    first | have g2 := rl_expr _ _ h2 | have g2 := rl_bound _ _ h2 | have g2 := rl_frame _ _ h2 | have g2 := rl_win _ _ h2 | have g2 := rl_set _ _ h2 | have g2 := rl_grp _ _ h2 | have g2 := rl_item _ _ h2 | have g2 := rl_query _ _ h2 | have g2 := rl_noWith _ _ h2 | have g2 := rl_term _ _ h2 | have g2 := rl_rel _ _ h2 | have g2 := rl_crit _ _ h2 | skip
    exact lambda_lits k2 (by lits)
  | .sub q, e_, h => by
    rw [CE_conv_sub] at h
    obtain ⟨q', h1, k1⟩ := bind_ok h
    first | have g1 := rl_expr _ _ h1 | have g1 := rl_bound _ _ h1 | have g1 := rl_frame _ _ h1 | have g1 := rl_win _ _ h1 | have g1 := rl_set _ _ h1 | have g1 := rl_grp _ _ h1 | have g1 := rl_item _ _ h1 | have g1 := rl_query _ _ h1 | have g1 := rl_noWith _ _ h1 | have g1 := rl_term _ _ h1 | have g1 := rl_rel _ _ h1 | have g1 := rl_crit _ _ h1 | skip
    obtain ⟨q'', h2, k2⟩ := bind_ok k1
    have hn2 := noneIs_inv h2; subst hn2
    have hz := Except.ok.inj k2; subst hz; lits
  | .case v ws e, e_, h => by
    rw [CE_conv_case] at h
    obtain ⟨bs, h1, k1⟩ := bind_ok h
    have g1 := rl_whens _ _ h1
    obtain ⟨a, h2, k2⟩ := bind_ok k1
    have g2 := drop_lits (fun e he => rl_opt _ e he) h2
    obtain ⟨c, h3, k3⟩ := bind_ok k2
    have g3 := rl_opt _ _ h3
    have hz := build_inv k3; subst hz; lits
  | .cast tr e ty _, e_, h => by
    rw [CE_conv_cast] at h
    obtain ⟨a, h1, k1⟩ := bind_ok h
    first | have g1 := rl_expr _ _ h1 | have g1 := rl_bound _ _ h1 | have g1 := rl_frame _ _ h1 | have g1 := rl_win _ _ h1 | have g1 := rl_set _ _ h1 | have g1 := rl_grp _ _ h1 | have g1 := rl_item _ _ h1 | have g1 := rl_query _ _ h1 | have g1 := rl_noWith _ _ h1 | have g1 := rl_term _ _ h1 | have g1 := rl_rel _ _ h1 | have g1 := rl_crit _ _ h1 | skip
    obtain ⟨t, h2, k2⟩ := bind_ok k1
    first | have g2 := rl_expr _ _ h2 | have g2 := rl_bound _ _ h2 | have g2 := rl_frame _ _ h2 | have g2 := rl_win _ _ h2 | have g2 := rl_set _ _ h2 | have g2 := rl_grp _ _ h2 | have g2 := rl_item _ _ h2 | have g2 := rl_query _ _ h2 | have g2 := rl_noWith _ _ h2 | have g2 := rl_term _ _ h2 | have g2 := rl_rel _ _ h2 | have g2 := rl_crit _ _ h2 | skip
    have hz := build_inv k2; subst hz; lits
  | .array es, e_, h => by
    rw [CE_conv_array] at h
    obtain ⟨vs, h1, k1⟩ := bind_ok h
    have g1 := rl_exprs _ _ h1
    have hz := build_inv k1; subst hz; lits
  | .subscript v i, e_, h => by
    rw [CE_conv_subscript] at h
    obtain ⟨a, h1, k1⟩ := bind_ok h
    first | have g1 := rl_expr _ _ h1 | have g1 := rl_bound _ _ h1 | have g1 := rl_frame _ _ h1 | have g1 := rl_win _ _ h1 | have g1 := rl_set _ _ h1 | have g1 := rl_grp _ _ h1 | have g1 := rl_item _ _ h1 | have g1 := rl_query _ _ h1 | have g1 := rl_noWith _ _ h1 | have g1 := rl_term _ _ h1 | have g1 := rl_rel _ _ h1 | have g1 := rl_crit _ _ h1 | skip
    obtain ⟨b, h2, k2⟩ := bind_ok k1
    first | have g2 := rl_expr _ _ h2 | have g2 := rl_bound _ _ h2 | have g2 := rl_frame _ _ h2 | have g2 := rl_win _ _ h2 | have g2 := rl_set _ _ h2 | have g2 := rl_grp _ _ h2 | have g2 := rl_item _ _ h2 | have g2 := rl_query _ _ h2 | have g2 := rl_noWith _ _ h2 | have g2 := rl_term _ _ h2 | have g2 := rl_rel _ _ h2 | have g2 := rl_crit _ _ h2 | skip
    have hz := build_inv k2; subst hz; lits
  | .col t, e_, h => by
    rw [CE_conv_col] at h
    obtain ⟨n, h1, k1⟩ := bind_ok h
    have hz := build_inv k1; subst hz; lits
  | .deref v n, e_, h => by
    rw [CE_conv_deref] at h
    obtain ⟨a, h1, k1⟩ := bind_ok h
    first | have g1 := rl_expr _ _ h1 | have g1 := rl_bound _ _ h1 | have g1 := rl_frame _ _ h1 | have g1 := rl_win _ _ h1 | have g1 := rl_set _ _ h1 | have g1 := rl_grp _ _ h1 | have g1 := rl_item _ _ h1 | have g1 := rl_query _ _ h1 | have g1 := rl_noWith _ _ h1 | have g1 := rl_term _ _ h1 | have g1 := rl_rel _ _ h1 | have g1 := rl_crit _ _ h1 | skip
    obtain ⟨s, h2, k2⟩ := bind_ok k1
    exact deref_lits k2 (by lits)
  | .dateTime t p, e_, h => by
    rw [CE_conv_dateTime] at h
    exact dateTime_lits h
  | .session t, e_, h => by
    rw [CE_conv_session] at h
    exact session_lits h
  | .normalize v f, e_, h => by
    rw [CE_conv_normalize] at h
    obtain ⟨a, h1, k1⟩ := bind_ok h
    first | have g1 := rl_expr _ _ h1 | have g1 := rl_bound _ _ h1 | have g1 := rl_frame _ _ h1 | have g1 := rl_win _ _ h1 | have g1 := rl_set _ _ h1 | have g1 := rl_grp _ _ h1 | have g1 := rl_item _ _ h1 | have g1 := rl_query _ _ h1 | have g1 := rl_noWith _ _ h1 | have g1 := rl_term _ _ h1 | have g1 := rl_rel _ _ h1 | have g1 := rl_crit _ _ h1 | skip
    obtain ⟨fo, h2, k2⟩ := bind_ok k1
    have hz := build_inv k2; subst hz; lits
  | .paren e, e_, h => by
    rw [CE_conv_paren] at h
    exact rl_expr _ _ h
  | .exists_ q, e_, h => by
    rw [CE_conv_exists_] at h
    obtain ⟨_, h1, k1⟩ := bind_ok h
    exact nomatch k1
  | .position l r, e_, h => by
    rw [CE_conv_position] at h
    obtain ⟨_, h1, k1⟩ := bind_ok h
    first | have g1 := rl_expr _ _ h1 | have g1 := rl_bound _ _ h1 | have g1 := rl_frame _ _ h1 | have g1 := rl_win _ _ h1 | have g1 := rl_set _ _ h1 | have g1 := rl_grp _ _ h1 | have g1 := rl_item _ _ h1 | have g1 := rl_query _ _ h1 | have g1 := rl_noWith _ _ h1 | have g1 := rl_term _ _ h1 | have g1 := rl_rel _ _ h1 | have g1 := rl_crit _ _ h1 | skip
    obtain ⟨_, h2, k2⟩ := bind_ok k1
    first | have g2 := rl_expr _ _ h2 | have g2 := rl_bound _ _ h2 | have g2 := rl_frame _ _ h2 | have g2 := rl_win _ _ h2 | have g2 := rl_set _ _ h2 | have g2 := rl_grp _ _ h2 | have g2 := rl_item _ _ h2 | have g2 := rl_query _ _ h2 | have g2 := rl_noWith _ _ h2 | have g2 := rl_term _ _ h2 | have g2 := rl_rel _ _ h2 | have g2 := rl_crit _ _ h2 | skip
    exact nomatch k2
  | .substring v f n, e_, h => by
    rw [CE_conv_substring] at h
    obtain ⟨_, h1, k1⟩ := bind_ok h
    first | have g1 := rl_expr _ _ h1 | have g1 := rl_bound _ _ h1 | have g1 := rl_frame _ _ h1 | have g1 := rl_win _ _ h1 | have g1 := rl_set _ _ h1 | have g1 := rl_grp _ _ h1 | have g1 := rl_item _ _ h1 | have g1 := rl_query _ _ h1 | have g1 := rl_noWith _ _ h1 | have g1 := rl_term _ _ h1 | have g1 := rl_rel _ _ h1 | have g1 := rl_crit _ _ h1 | skip
    obtain ⟨_, h2, k2⟩ := bind_ok k1
    first | have g2 := rl_expr _ _ h2 | have g2 := rl_bound _ _ h2 | have g2 := rl_frame _ _ h2 | have g2 := rl_win _ _ h2 | have g2 := rl_set _ _ h2 | have g2 := rl_grp _ _ h2 | have g2 := rl_item _ _ h2 | have g2 := rl_query _ _ h2 | have g2 := rl_noWith _ _ h2 | have g2 := rl_term _ _ h2 | have g2 := rl_rel _ _ h2 | have g2 := rl_crit _ _ h2 | skip
    obtain ⟨_, h3, k3⟩ := bind_ok k2
    exact nomatch k3
  | .extract t v, e_, h => by
    rw [CE_conv_extract] at h
    obtain ⟨_, h1, k1⟩ := bind_ok h
    obtain ⟨_, h2, k2⟩ := bind_ok k1
    first | have g2 := rl_expr _ _ h2 | have g2 := rl_bound _ _ h2 | have g2 := rl_frame _ _ h2 | have g2 := rl_win _ _ h2 | have g2 := rl_set _ _ h2 | have g2 := rl_grp _ _ h2 | have g2 := rl_item _ _ h2 | have g2 := rl_query _ _ h2 | have g2 := rl_noWith _ _ h2 | have g2 := rl_term _ _ h2 | have g2 := rl_rel _ _ h2 | have g2 := rl_crit _ _ h2 | skip
    exact nomatch k2
  | .trimFrom _ c v, e_, h => by
    rw [CE_conv_trimFrom] at h
    obtain ⟨_, h1, k1⟩ := bind_ok h
    obtain ⟨_, h2, k2⟩ := bind_ok k1
    first | have g2 := rl_expr _ _ h2 | have g2 := rl_bound _ _ h2 | have g2 := rl_frame _ _ h2 | have g2 := rl_win _ _ h2 | have g2 := rl_set _ _ h2 | have g2 := rl_grp _ _ h2 | have g2 := rl_item _ _ h2 | have g2 := rl_query _ _ h2 | have g2 := rl_noWith _ _ h2 | have g2 := rl_term _ _ h2 | have g2 := rl_rel _ _ h2 | have g2 := rl_crit _ _ h2 | skip
    exact nomatch k2
  | .trim v c, e_, h => by
    rw [CE_conv_trim] at h
    obtain ⟨_, h1, k1⟩ := bind_ok h
    first | have g1 := rl_expr _ _ h1 | have g1 := rl_bound _ _ h1 | have g1 := rl_frame _ _ h1 | have g1 := rl_win _ _ h1 | have g1 := rl_set _ _ h1 | have g1 := rl_grp _ _ h1 | have g1 := rl_item _ _ h1 | have g1 := rl_query _ _ h1 | have g1 := rl_noWith _ _ h1 | have g1 := rl_term _ _ h1 | have g1 := rl_rel _ _ h1 | have g1 := rl_crit _ _ h1 | skip
    obtain ⟨_, h2, k2⟩ := bind_ok k1
    exact nomatch k2
  | .grouping ns, e_, h => by
    rw [CE_conv_grouping] at h
    obtain ⟨_, h1, k1⟩ := bind_ok h
    exact nomatch k1
theorem rl_opt : ∀ (c : Option CE) (e : Option Expr), CE.convOpt c = .ok e → ReadLits (litsExprOpt e)
  | none, e_, h => by
    rw [CE_convOpt_none] at h
    have hz := Except.ok.inj h; subst hz; lits
  | some e, e_, h => by
    rw [CE_convOpt_some] at h
    obtain ⟨a, h1, k1⟩ := bind_ok h
    first | have g1 := rl_expr _ _ h1 | have g1 := rl_bound _ _ h1 | have g1 := rl_frame _ _ h1 | have g1 := rl_win _ _ h1 | have g1 := rl_set _ _ h1 | have g1 := rl_grp _ _ h1 | have g1 := rl_item _ _ h1 | have g1 := rl_query _ _ h1 | have g1 := rl_noWith _ _ h1 | have g1 := rl_term _ _ h1 | have g1 := rl_rel _ _ h1 | have g1 := rl_crit _ _ h1 | skip
    have hz := Except.ok.inj k1; subst hz; lits
theorem rl_exprs : ∀ (c : List CE) (e : List Expr), CE.convs c = .ok e → ReadLits (litsExprs e)
  | [], e_, h => by
    rw [CE_convs_nil] at h
    have hz := Except.ok.inj h; subst hz; lits
  | e :: es, e_, h => by
    rw [CE_convs_cons] at h
    obtain ⟨a, h1, k1⟩ := bind_ok h
    first | have g1 := rl_expr _ _ h1 | have g1 := rl_bound _ _ h1 | have g1 := rl_frame _ _ h1 | have g1 := rl_win _ _ h1 | have g1 := rl_set _ _ h1 | have g1 := rl_grp _ _ h1 | have g1 := rl_item _ _ h1 | have g1 := rl_query _ _ h1 | have g1 := rl_noWith _ _ h1 | have g1 := rl_term _ _ h1 | have g1 := rl_rel _ _ h1 | have g1 := rl_crit _ _ h1 | skip
    obtain ⟨as_, h2, k2⟩ := bind_ok k1
    have g2 := rl_exprs _ _ h2
    have hz := Except.ok.inj k2; subst hz; lits
theorem rl_whens : ∀ (c : List CWhen) (e : List (Expr × Expr)), CWhen.convs c = .ok e → ReadLits (litsWhens e)
  | [], e_, h => by
    rw [CWhen_convs_nil] at h
    have hz := Except.ok.inj h; subst hz; lits
  | .mk c v :: ws, e_, h => by
    rw [CWhen_convs_cons] at h
    obtain ⟨a, h1, k1⟩ := bind_ok h
    first | have g1 := rl_expr _ _ h1 | have g1 := rl_bound _ _ h1 | have g1 := rl_frame _ _ h1 | have g1 := rl_win _ _ h1 | have g1 := rl_set _ _ h1 | have g1 := rl_grp _ _ h1 | have g1 := rl_item _ _ h1 | have g1 := rl_query _ _ h1 | have g1 := rl_noWith _ _ h1 | have g1 := rl_term _ _ h1 | have g1 := rl_rel _ _ h1 | have g1 := rl_crit _ _ h1 | skip
    obtain ⟨b, h2, k2⟩ := bind_ok k1
    first | have g2 := rl_expr _ _ h2 | have g2 := rl_bound _ _ h2 | have g2 := rl_frame _ _ h2 | have g2 := rl_win _ _ h2 | have g2 := rl_set _ _ h2 | have g2 := rl_grp _ _ h2 | have g2 := rl_item _ _ h2 | have g2 := rl_query _ _ h2 | have g2 := rl_noWith _ _ h2 | have g2 := rl_term _ _ h2 | have g2 := rl_rel _ _ h2 | have g2 := rl_crit _ _ h2 | skip
    obtain ⟨bs, h3, k3⟩ := bind_ok k2
    have g3 := rl_whens _ _ h3
    have hz := Except.ok.inj k3; subst hz; lits
theorem rl_sorts : ∀ (c : List CSort) (e : List Ord), CSort.convs c = .ok e → ReadLits (litsOrds e)
  | [], e_, h => by
    rw [CSort_convs_nil] at h
    have hz := Except.ok.inj h; subst hz; lits
  | .mk e o n :: ss, e_, h => by
    rw [CSort_convs_cons] at h
    obtain ⟨a, h1, k1⟩ := bind_ok h
    first | have g1 := rl_expr _ _ h1 | have g1 := rl_bound _ _ h1 | have g1 := rl_frame _ _ h1 | have g1 := rl_win _ _ h1 | have g1 := rl_set _ _ h1 | have g1 := rl_grp _ _ h1 | have g1 := rl_item _ _ h1 | have g1 := rl_query _ _ h1 | have g1 := rl_noWith _ _ h1 | have g1 := rl_term _ _ h1 | have g1 := rl_rel _ _ h1 | have g1 := rl_crit _ _ h1 | skip
    obtain ⟨os, h2, k2⟩ := bind_ok k1
    have g2 := rl_sorts _ _ h2
    have hz := Except.ok.inj k2; subst hz; lits
theorem rl_bound : ∀ (c : CBound) (e : Bound), CBound.conv c = .ok e → ReadLits (litsBound e)
  | .unbounded t, e_, h => by
    rw [CBound_conv_unbounded] at h
    obtain ⟨b, h1, k1⟩ := bind_ok h
    have hz := Except.ok.inj k1; subst hz; lits
  | .current, e_, h => by
    rw [CBound_conv_current] at h
    have hz := Except.ok.inj h; subst hz; lits
  | .bounded e t, e_, h => by
    rw [CBound_conv_bounded] at h
    obtain ⟨b, h1, k1⟩ := bind_ok h
    obtain ⟨a, h2, k2⟩ := bind_ok k1
    first | have g2 := rl_expr _ _ h2 | have g2 := rl_bound _ _ h2 | have g2 := rl_frame _ _ h2 | have g2 := rl_win _ _ h2 | have g2 := rl_set _ _ h2 | have g2 := rl_grp _ _ h2 | have g2 := rl_item _ _ h2 | have g2 := rl_query _ _ h2 | have g2 := rl_noWith _ _ h2 | have g2 := rl_term _ _ h2 | have g2 := rl_rel _ _ h2 | have g2 := rl_crit _ _ h2 | skip
    have hz := Except.ok.inj k2; subst hz; lits
theorem rl_frame : ∀ (c : CFrame) (e : FrameType × Bound × Bound), CFrame.conv c = .ok e → ReadLits (frameLits e)
  | .none, e_, h => by
    rw [CFrame_conv_none] at h
    have hz := Except.ok.inj h; subst hz; lits
  | .from_ t b, e_, h => by
    rw [CFrame_conv_from_] at h
    obtain ⟨f, h1, k1⟩ := bind_ok h
    obtain ⟨a, h2, k2⟩ := bind_ok k1
    first | have g2 := rl_expr _ _ h2 | have g2 := rl_bound _ _ h2 | have g2 := rl_frame _ _ h2 | have g2 := rl_win _ _ h2 | have g2 := rl_set _ _ h2 | have g2 := rl_grp _ _ h2 | have g2 := rl_item _ _ h2 | have g2 := rl_query _ _ h2 | have g2 := rl_noWith _ _ h2 | have g2 := rl_term _ _ h2 | have g2 := rl_rel _ _ h2 | have g2 := rl_crit _ _ h2 | skip
    have hz := Except.ok.inj k2; subst hz; lits
  | .between t a b, e_, h => by
    rw [CFrame_conv_between] at h
    obtain ⟨f, h1, k1⟩ := bind_ok h
    obtain ⟨x, h2, k2⟩ := bind_ok k1
    first | have g2 := rl_expr _ _ h2 | have g2 := rl_bound _ _ h2 | have g2 := rl_frame _ _ h2 | have g2 := rl_win _ _ h2 | have g2 := rl_set _ _ h2 | have g2 := rl_grp _ _ h2 | have g2 := rl_item _ _ h2 | have g2 := rl_query _ _ h2 | have g2 := rl_noWith _ _ h2 | have g2 := rl_term _ _ h2 | have g2 := rl_rel _ _ h2 | have g2 := rl_crit _ _ h2 | skip
    obtain ⟨y, h3, k3⟩ := bind_ok k2
    first | have g3 := rl_expr _ _ h3 | have g3 := rl_bound _ _ h3 | have g3 := rl_frame _ _ h3 | have g3 := rl_win _ _ h3 | have g3 := rl_set _ _ h3 | have g3 := rl_grp _ _ h3 | have g3 := rl_item _ _ h3 | have g3 := rl_query _ _ h3 | have g3 := rl_noWith _ _ h3 | have g3 := rl_term _ _ h3 | have g3 := rl_rel _ _ h3 | have g3 := rl_crit _ _ h3 | skip
    have hz := Except.ok.inj k3; subst hz; lits
theorem rl_win : ∀ (c : CWin) (e : Win), CWin.conv c = .ok e → ReadLits (litsWin e)
  | .ref t, e_, h => by
    rw [CWin_conv_ref] at h
    obtain ⟨n, h1, k1⟩ := bind_ok h
    have hz := Except.ok.inj k1; subst hz; lits
  | .spec p ps ob fr, e_, h => by
    rw [CWin_conv_spec] at h
    obtain ⟨f, h1, k1⟩ := bind_ok h
    first | have g1 := rl_expr _ _ h1 | have g1 := rl_bound _ _ h1 | have g1 := rl_frame _ _ h1 | have g1 := rl_win _ _ h1 | have g1 := rl_set _ _ h1 | have g1 := rl_grp _ _ h1 | have g1 := rl_item _ _ h1 | have g1 := rl_query _ _ h1 | have g1 := rl_noWith _ _ h1 | have g1 := rl_term _ _ h1 | have g1 := rl_rel _ _ h1 | have g1 := rl_crit _ _ h1 | skip
    obtain ⟨o, h2, k2⟩ := bind_ok k1
    have g2 := rl_sorts _ _ h2
    obtain ⟨as_, h3, k3⟩ := bind_ok k2
    have g3 := rl_exprs _ _ h3
    obtain ⟨n, h4, k4⟩ := bind_ok k3
    have hz := Except.ok.inj k4; subst hz; lits
theorem rl_wopt : ∀ (c : Option CWin) (e : Option Win), CWin.convOpt c = .ok e → ReadLits (litsWinOpt e)
  | none, e_, h => by
    rw [CWin_convOpt_none] at h
    have hz := Except.ok.inj h; subst hz; lits
  | some w, e_, h => by
    rw [CWin_convOpt_some] at h
    obtain ⟨a, h1, k1⟩ := bind_ok h
    first | have g1 := rl_expr _ _ h1 | have g1 := rl_bound _ _ h1 | have g1 := rl_frame _ _ h1 | have g1 := rl_win _ _ h1 | have g1 := rl_set _ _ h1 | have g1 := rl_grp _ _ h1 | have g1 := rl_item _ _ h1 | have g1 := rl_query _ _ h1 | have g1 := rl_noWith _ _ h1 | have g1 := rl_term _ _ h1 | have g1 := rl_rel _ _ h1 | have g1 := rl_crit _ _ h1 | skip
    have hz := Except.ok.inj k1; subst hz; lits
theorem rl_set : ∀ (c : CSet) (e : List Expr), CSet.conv c = .ok e → ReadLits (litsExprs e)
  | .paren es, e_, h => by
    rw [CSet_conv_paren] at h
    exact rl_exprs _ _ h
  | .expr e, e_, h => by
    rw [CSet_conv_expr] at h
    obtain ⟨a, h1, k1⟩ := bind_ok h
    first | have g1 := rl_expr _ _ h1 | have g1 := rl_bound _ _ h1 | have g1 := rl_frame _ _ h1 | have g1 := rl_win _ _ h1 | have g1 := rl_set _ _ h1 | have g1 := rl_grp _ _ h1 | have g1 := rl_item _ _ h1 | have g1 := rl_query _ _ h1 | have g1 := rl_noWith _ _ h1 | have g1 := rl_term _ _ h1 | have g1 := rl_rel _ _ h1 | have g1 := rl_crit _ _ h1 | skip
    have hz := Except.ok.inj k1; subst hz; lits
theorem rl_sets : ∀ (c : List CSet) (e : List (List Expr)), CSet.convs c = .ok e → ReadLits (litsLists e)
  | [], e_, h => by
    rw [CSet_convs_nil] at h
    have hz := Except.ok.inj h; subst hz; lits
  | s :: ss, e_, h => by
    rw [CSet_convs_cons] at h
    obtain ⟨a, h1, k1⟩ := bind_ok h
    first | have g1 := rl_expr _ _ h1 | have g1 := rl_bound _ _ h1 | have g1 := rl_frame _ _ h1 | have g1 := rl_win _ _ h1 | have g1 := rl_set _ _ h1 | have g1 := rl_grp _ _ h1 | have g1 := rl_item _ _ h1 | have g1 := rl_query _ _ h1 | have g1 := rl_noWith _ _ h1 | have g1 := rl_term _ _ h1 | have g1 := rl_rel _ _ h1 | have g1 := rl_crit _ _ h1 | skip
    obtain ⟨as_, h2, k2⟩ := bind_ok k1
    have g2 := rl_sets _ _ h2
    have hz := Except.ok.inj k2; subst hz; lits
theorem rl_grp : ∀ (c : CGrp) (e : Grp), CGrp.conv c = .ok e → ReadLits (litsGrp e)
  | .single s, e_, h => by
    rw [CGrp_conv_single] at h
    obtain ⟨vs, h1, k1⟩ := bind_ok h
    first | have g1 := rl_expr _ _ h1 | have g1 := rl_bound _ _ h1 | have g1 := rl_frame _ _ h1 | have g1 := rl_win _ _ h1 | have g1 := rl_set _ _ h1 | have g1 := rl_grp _ _ h1 | have g1 := rl_item _ _ h1 | have g1 := rl_query _ _ h1 | have g1 := rl_noWith _ _ h1 | have g1 := rl_term _ _ h1 | have g1 := rl_rel _ _ h1 | have g1 := rl_crit _ _ h1 | skip
    have hz := gbuild_inv k1; subst hz; lits
  | .rollup es, e_, h => by
    rw [CGrp_conv_rollup] at h
    obtain ⟨vs, h1, k1⟩ := bind_ok h
    have g1 := rl_exprs _ _ h1
    have hz := gbuild_inv k1; subst hz; lits
  | .cube es, e_, h => by
    rw [CGrp_conv_cube] at h
    obtain ⟨vs, h1, k1⟩ := bind_ok h
    have g1 := rl_exprs _ _ h1
    have hz := gbuild_inv k1; subst hz; lits
  | .sets ss, e_, h => by
    rw [CGrp_conv_sets] at h
    obtain ⟨gs, h1, k1⟩ := bind_ok h
    have g1 := rl_sets _ _ h1
    have hz := gbuild_inv k1; subst hz; lits
theorem rl_grps : ∀ (c : List CGrp) (e : List Grp), CGrp.convs c = .ok e → ReadLits (litsGrps e)
  | [], e_, h => by
    rw [CGrp_convs_nil] at h
    have hz := Except.ok.inj h; subst hz; lits
  | s :: ss, e_, h => by
    rw [CGrp_convs_cons] at h
    obtain ⟨a, h1, k1⟩ := bind_ok h
    first | have g1 := rl_expr _ _ h1 | have g1 := rl_bound _ _ h1 | have g1 := rl_frame _ _ h1 | have g1 := rl_win _ _ h1 | have g1 := rl_set _ _ h1 | have g1 := rl_grp _ _ h1 | have g1 := rl_item _ _ h1 | have g1 := rl_query _ _ h1 | have g1 := rl_noWith _ _ h1 | have g1 := rl_term _ _ h1 | have g1 := rl_rel _ _ h1 | have g1 := rl_crit _ _ h1 | skip
    obtain ⟨as_, h2, k2⟩ := bind_ok k1
    have g2 := rl_grps _ _ h2
    have hz := Except.ok.inj k2; subst hz; lits
theorem rl_item : ∀ (c : CItem) (e : Expr), CItem.conv c = .ok e → ReadLits (litsExpr e)
  | .expr e _ a, e_, h => by
    rw [CItem_conv_expr] at h
    obtain ⟨v, h1, k1⟩ := bind_ok h
    first | have g1 := rl_expr _ _ h1 | have g1 := rl_bound _ _ h1 | have g1 := rl_frame _ _ h1 | have g1 := rl_win _ _ h1 | have g1 := rl_set _ _ h1 | have g1 := rl_grp _ _ h1 | have g1 := rl_item _ _ h1 | have g1 := rl_query _ _ h1 | have g1 := rl_noWith _ _ h1 | have g1 := rl_term _ _ h1 | have g1 := rl_rel _ _ h1 | have g1 := rl_crit _ _ h1 | skip
    obtain ⟨n, h2, k2⟩ := bind_ok k1
    exact alias_lits k2 (by lits)
  | .allOf e cols, e_, h => by
    rw [CItem_conv_allOf] at h
    obtain ⟨b, h1, k1⟩ := bind_ok h
    first | have g1 := rl_expr _ _ h1 | have g1 := rl_bound _ _ h1 | have g1 := rl_frame _ _ h1 | have g1 := rl_win _ _ h1 | have g1 := rl_set _ _ h1 | have g1 := rl_grp _ _ h1 | have g1 := rl_item _ _ h1 | have g1 := rl_query _ _ h1 | have g1 := rl_noWith _ _ h1 | have g1 := rl_term _ _ h1 | have g1 := rl_rel _ _ h1 | have g1 := rl_crit _ _ h1 | skip
    obtain ⟨s, h2, k2⟩ := bind_ok k1
    obtain ⟨cs, h3, k3⟩ := bind_ok k2
    exact starAliases_lits k3 (starOf_lits h2 (rl_expr _ _ h1))
  | .all, e_, h => by
    rw [CItem_conv_all] at h
    have hz := build_inv h; subst hz; lits
theorem rl_items : ∀ (c : List CItem) (e : List Expr), CItem.convs c = .ok e → ReadLits (litsExprs e)
  | [], e_, h => by
    rw [CItem_convs_nil] at h
    have hz := Except.ok.inj h; subst hz; lits
  | s :: ss, e_, h => by
    rw [CItem_convs_cons] at h
    obtain ⟨a, h1, k1⟩ := bind_ok h
    first | have g1 := rl_expr _ _ h1 | have g1 := rl_bound _ _ h1 | have g1 := rl_frame _ _ h1 | have g1 := rl_win _ _ h1 | have g1 := rl_set _ _ h1 | have g1 := rl_grp _ _ h1 | have g1 := rl_item _ _ h1 | have g1 := rl_query _ _ h1 | have g1 := rl_noWith _ _ h1 | have g1 := rl_term _ _ h1 | have g1 := rl_rel _ _ h1 | have g1 := rl_crit _ _ h1 | skip
    obtain ⟨as_, h2, k2⟩ := bind_ok k1
    have g2 := rl_items _ _ h2
    have hz := Except.ok.inj k2; subst hz; lits
theorem rl_wins : ∀ (c : List CWinDef) (e : List (Str × Win)), CWinDef.convs c = .ok e → ReadLits (litsNamedWins e)
  | [], e_, h => by
    rw [CWinDef_convs_nil] at h
    have hz := Except.ok.inj h; subst hz; lits
  | .mk n w :: ws, e_, h => by
    rw [CWinDef_convs_cons] at h
    obtain ⟨s, h1, k1⟩ := bind_ok h
    obtain ⟨a, h2, k2⟩ := bind_ok k1
    first | have g2 := rl_expr _ _ h2 | have g2 := rl_bound _ _ h2 | have g2 := rl_frame _ _ h2 | have g2 := rl_win _ _ h2 | have g2 := rl_set _ _ h2 | have g2 := rl_grp _ _ h2 | have g2 := rl_item _ _ h2 | have g2 := rl_query _ _ h2 | have g2 := rl_noWith _ _ h2 | have g2 := rl_term _ _ h2 | have g2 := rl_rel _ _ h2 | have g2 := rl_crit _ _ h2 | skip
    obtain ⟨as_, h3, k3⟩ := bind_ok k2
    have g3 := rl_wins _ _ h3
    have hz := Except.ok.inj k3; subst hz; lits
theorem rl_query : ∀ (c : CQ) (e : Option Query), CQ.conv c = .ok e → ReadLits (litsO litsQuery e)
  | .mk rc w b, e_, h => by
    rw [CQ_conv_mk] at h
    obtain ⟨q, h1, k1⟩ := bind_ok h
    cases rc with
    | true => exact nomatch k1
    | false =>
      obtain ⟨ns, h2, k2⟩ := bind_ok (k1 : (CNamed.convs w >>= _) = _)
      exact with_lits k2 (rl_named _ _ h2) (rl_noWith _ _ h1)
theorem rl_named : ∀ (c : List CNamed) (e : List Named), CNamed.convs c = .ok e → ReadLits (litsNameds e)
  | [], e_, h => by
    rw [CNamed_convs_nil] at h
    have hz := Except.ok.inj h; subst hz; lits
  | .mk n cols q :: ns, e_, h => by
    rw [CNamed_convs_cons] at h
    obtain ⟨cs, h1, k1⟩ := bind_ok h
    obtain ⟨q', h2, k2⟩ := bind_ok k1
    first | have g2 := rl_expr _ _ h2 | have g2 := rl_bound _ _ h2 | have g2 := rl_frame _ _ h2 | have g2 := rl_win _ _ h2 | have g2 := rl_set _ _ h2 | have g2 := rl_grp _ _ h2 | have g2 := rl_item _ _ h2 | have g2 := rl_query _ _ h2 | have g2 := rl_noWith _ _ h2 | have g2 := rl_term _ _ h2 | have g2 := rl_rel _ _ h2 | have g2 := rl_crit _ _ h2 | skip
    obtain ⟨q'', h3, k3⟩ := bind_ok k2
    have hn3 := noneIs_inv h3; subst hn3
    obtain ⟨a, h4, k4⟩ := bind_ok k3
    obtain ⟨as_, h5, k5⟩ := bind_ok k4
    have g5 := rl_named _ _ h5
    have hz := Except.ok.inj k5; subst hz; lits
theorem rl_noWith : ∀ (c : CQN) (e : Option Query), CQN.conv c = .ok e → ReadLits (litsO litsQuery e)
  | .mk t ob off lim, e_, h => by
    rw [CQN_conv_mk] at h
    obtain ⟨q1, h1, k1⟩ := bind_ok h
    first | have g1 := rl_expr _ _ h1 | have g1 := rl_bound _ _ h1 | have g1 := rl_frame _ _ h1 | have g1 := rl_win _ _ h1 | have g1 := rl_set _ _ h1 | have g1 := rl_grp _ _ h1 | have g1 := rl_item _ _ h1 | have g1 := rl_query _ _ h1 | have g1 := rl_noWith _ _ h1 | have g1 := rl_term _ _ h1 | have g1 := rl_rel _ _ h1 | have g1 := rl_crit _ _ h1 | skip
    obtain ⟨o, h2, k2⟩ := bind_ok k1
    have g2 := rl_sorts _ _ h2
    obtain ⟨q3, h3, k3⟩ := bind_ok k2
    obtain ⟨q4, h4, k4⟩ := bind_ok k3
    exact limit_lits k4 (offset_lits h4 (order_lits h3 (rl_sorts _ _ h2) (rl_term _ _ h1)))
theorem rl_term : ∀ (c : CQT) (e : Option Query), CQT.conv c = .ok e → ReadLits (litsO litsQuery e)
  | .set op quant l r, e_, h => by
    rw [CQT_conv_set] at h
    obtain ⟨a, h1, k1⟩ := bind_ok h
    first | have g1 := rl_expr _ _ h1 | have g1 := rl_bound _ _ h1 | have g1 := rl_frame _ _ h1 | have g1 := rl_win _ _ h1 | have g1 := rl_set _ _ h1 | have g1 := rl_grp _ _ h1 | have g1 := rl_item _ _ h1 | have g1 := rl_query _ _ h1 | have g1 := rl_noWith _ _ h1 | have g1 := rl_term _ _ h1 | have g1 := rl_rel _ _ h1 | have g1 := rl_crit _ _ h1 | skip
    obtain ⟨b, h2, k2⟩ := bind_ok k1
    first | have g2 := rl_expr _ _ h2 | have g2 := rl_bound _ _ h2 | have g2 := rl_frame _ _ h2 | have g2 := rl_win _ _ h2 | have g2 := rl_set _ _ h2 | have g2 := rl_grp _ _ h2 | have g2 := rl_item _ _ h2 | have g2 := rl_query _ _ h2 | have g2 := rl_noWith _ _ h2 | have g2 := rl_term _ _ h2 | have g2 := rl_rel _ _ h2 | have g2 := rl_crit _ _ h2 | skip
    obtain ⟨d, h3, k3⟩ := bind_ok k2
    obtain ⟨k, h4, k4⟩ := bind_ok k3
    obtain ⟨a', h5, k5⟩ := bind_ok k4
    have hn5 := noneIs_inv h5; subst hn5
    obtain ⟨b', h6, k6⟩ := bind_ok k5
    have hn6 := noneIs_inv h6; subst hn6
    obtain ⟨q, h7, k7⟩ := bind_ok k6
    have hn7 := qbuild_inv h7; subst hn7
    have hz := Except.ok.inj k7; subst hz; lits
  | .spec quant items fr wh gq gs hv wins, e_, h => by
    rw [CQT_conv_spec] at h
    obtain ⟨is_, h1, k1⟩ := bind_ok h
    have g1 := rl_items _ _ h1
    obtain ⟨rs, h2, k2⟩ := bind_ok k1
    have g2 := rl_rels _ _ h2
    obtain ⟨f, h3, k3⟩ := bind_ok k2
    obtain ⟨d, h4, k4⟩ := bind_ok k3
    obtain ⟨w, h5, k5⟩ := bind_ok k4
    have g5 := drop_lits (fun e he => rl_opt _ e he) h5
    obtain ⟨h, h6, k6⟩ := bind_ok k5
    have g6 := drop_lits (fun e he => rl_opt _ e he) h6
    obtain ⟨g, h7, k7⟩ := bind_ok k6
    have g7 := rl_grps _ _ h7
    obtain ⟨gd, h8, k8⟩ := bind_ok k7
    obtain ⟨ws, h9, k9⟩ := bind_ok k8
    have g9 := rl_wins _ _ h9
    obtain ⟨q, h10, k10⟩ := bind_ok k9
    have hn10 := qbuild_inv h10; subst hn10
    have hz := Except.ok.inj k10; subst hz
    exact spec_lits (rl_items _ _ h1) (from_lits h3 (rl_rels _ _ h2)) g5 (groupBy_lits (rl_grps _ _ h7)) g6 (dict_lits (rl_wins _ _ h9))
  | .table name, e_, h => by
    rw [CQT_conv_table] at h
    obtain ⟨ns, h1, k1⟩ := bind_ok h
    obtain ⟨t, h2, k2⟩ := bind_ok k1
    obtain ⟨q, h3, k3⟩ := bind_ok k2
    have hn3 := qbuild_inv h3; subst hn3
    have hz := Except.ok.inj k3; subst hz; lits
  | .values es, e_, h => by
    rw [CQT_conv_values] at h
    obtain ⟨vs, h1, k1⟩ := bind_ok h
    have g1 := rl_exprs _ _ h1
    obtain ⟨q, h2, k2⟩ := bind_ok k1
    have hn2 := qbuild_inv h2; subst hn2
    have hz := Except.ok.inj k2; subst hz; lits
  | .sub q, e_, h => by
    rw [CQT_conv_sub] at h
    obtain ⟨_, h1, k1⟩ := bind_ok h
    first | have g1 := rl_expr _ _ h1 | have g1 := rl_bound _ _ h1 | have g1 := rl_frame _ _ h1 | have g1 := rl_win _ _ h1 | have g1 := rl_set _ _ h1 | have g1 := rl_grp _ _ h1 | have g1 := rl_item _ _ h1 | have g1 := rl_query _ _ h1 | have g1 := rl_noWith _ _ h1 | have g1 := rl_term _ _ h1 | have g1 := rl_rel _ _ h1 | have g1 := rl_crit _ _ h1 | skip
    have hz := Except.ok.inj k1; subst hz; lits
theorem rl_rel : ∀ (c : CR) (e : Option Rel), CR.conv c = .ok e → ReadLits (litsO litsRel e)
  | .cross l r, e_, h => by
    rw [CR_conv_cross] at h
    obtain ⟨a, h1, k1⟩ := bind_ok h
    first | have g1 := rl_expr _ _ h1 | have g1 := rl_bound _ _ h1 | have g1 := rl_frame _ _ h1 | have g1 := rl_win _ _ h1 | have g1 := rl_set _ _ h1 | have g1 := rl_grp _ _ h1 | have g1 := rl_item _ _ h1 | have g1 := rl_query _ _ h1 | have g1 := rl_noWith _ _ h1 | have g1 := rl_term _ _ h1 | have g1 := rl_rel _ _ h1 | have g1 := rl_crit _ _ h1 | skip
    obtain ⟨b, h2, k2⟩ := bind_ok k1
    first | have g2 := rl_expr _ _ h2 | have g2 := rl_bound _ _ h2 | have g2 := rl_frame _ _ h2 | have g2 := rl_win _ _ h2 | have g2 := rl_set _ _ h2 | have g2 := rl_grp _ _ h2 | have g2 := rl_item _ _ h2 | have g2 := rl_query _ _ h2 | have g2 := rl_noWith _ _ h2 | have g2 := rl_term _ _ h2 | have g2 := rl_rel _ _ h2 | have g2 := rl_crit _ _ h2 | skip
    obtain ⟨a', h3, k3⟩ := bind_ok k2
    have hn3 := noneIs_inv h3; subst hn3
    obtain ⟨b', h4, k4⟩ := bind_ok k3
    have hn4 := noneIs_inv h4; subst hn4
    obtain ⟨x, h5, k5⟩ := bind_ok k4
    have hn5 := rbuild_inv h5; subst hn5
    have hz := Except.ok.inj k5; subst hz; lits
  | .natural l t r, e_, h => by
    rw [CR_conv_natural] at h
    obtain ⟨a, h1, k1⟩ := bind_ok h
    first | have g1 := rl_expr _ _ h1 | have g1 := rl_bound _ _ h1 | have g1 := rl_frame _ _ h1 | have g1 := rl_win _ _ h1 | have g1 := rl_set _ _ h1 | have g1 := rl_grp _ _ h1 | have g1 := rl_item _ _ h1 | have g1 := rl_query _ _ h1 | have g1 := rl_noWith _ _ h1 | have g1 := rl_term _ _ h1 | have g1 := rl_rel _ _ h1 | have g1 := rl_crit _ _ h1 | skip
    obtain ⟨b, h2, k2⟩ := bind_ok k1
    first | have g2 := rl_expr _ _ h2 | have g2 := rl_bound _ _ h2 | have g2 := rl_frame _ _ h2 | have g2 := rl_win _ _ h2 | have g2 := rl_set _ _ h2 | have g2 := rl_grp _ _ h2 | have g2 := rl_item _ _ h2 | have g2 := rl_query _ _ h2 | have g2 := rl_noWith _ _ h2 | have g2 := rl_term _ _ h2 | have g2 := rl_rel _ _ h2 | have g2 := rl_crit _ _ h2 | skip
    obtain ⟨a', h3, k3⟩ := bind_ok k2
    have hn3 := noneIs_inv h3; subst hn3
    obtain ⟨b', h4, k4⟩ := bind_ok k3
    have hn4 := noneIs_inv h4; subst hn4
    obtain ⟨x, h5, k5⟩ := bind_ok k4
    have hn5 := rbuild_inv h5; subst hn5
    have hz := Except.ok.inj k5; subst hz; lits
  | .join l t r c, e_, h => by
    rw [CR_conv_join] at h
    obtain ⟨a, h1, k1⟩ := bind_ok h
    first | have g1 := rl_expr _ _ h1 | have g1 := rl_bound _ _ h1 | have g1 := rl_frame _ _ h1 | have g1 := rl_win _ _ h1 | have g1 := rl_set _ _ h1 | have g1 := rl_grp _ _ h1 | have g1 := rl_item _ _ h1 | have g1 := rl_query _ _ h1 | have g1 := rl_noWith _ _ h1 | have g1 := rl_term _ _ h1 | have g1 := rl_rel _ _ h1 | have g1 := rl_crit _ _ h1 | skip
    obtain ⟨b, h2, k2⟩ := bind_ok k1
    first | have g2 := rl_expr _ _ h2 | have g2 := rl_bound _ _ h2 | have g2 := rl_frame _ _ h2 | have g2 := rl_win _ _ h2 | have g2 := rl_set _ _ h2 | have g2 := rl_grp _ _ h2 | have g2 := rl_item _ _ h2 | have g2 := rl_query _ _ h2 | have g2 := rl_noWith _ _ h2 | have g2 := rl_term _ _ h2 | have g2 := rl_rel _ _ h2 | have g2 := rl_crit _ _ h2 | skip
    obtain ⟨c', h3, k3⟩ := bind_ok k2
    first | have g3 := rl_expr _ _ h3 | have g3 := rl_bound _ _ h3 | have g3 := rl_frame _ _ h3 | have g3 := rl_win _ _ h3 | have g3 := rl_set _ _ h3 | have g3 := rl_grp _ _ h3 | have g3 := rl_item _ _ h3 | have g3 := rl_query _ _ h3 | have g3 := rl_noWith _ _ h3 | have g3 := rl_term _ _ h3 | have g3 := rl_rel _ _ h3 | have g3 := rl_crit _ _ h3 | skip
    obtain ⟨a', h4, k4⟩ := bind_ok k3
    have hn4 := noneIs_inv h4; subst hn4
    obtain ⟨b', h5, k5⟩ := bind_ok k4
    have hn5 := noneIs_inv h5; subst hn5
    obtain ⟨x, h6, k6⟩ := bind_ok k5
    have hn6 := rbuild_inv h6; subst hn6
    have hz := Except.ok.inj k6; subst hz; lits
  | .sample r t e, e_, h => by
    rw [CR_conv_sample] at h
    obtain ⟨a, h1, k1⟩ := bind_ok h
    first | have g1 := rl_expr _ _ h1 | have g1 := rl_bound _ _ h1 | have g1 := rl_frame _ _ h1 | have g1 := rl_win _ _ h1 | have g1 := rl_set _ _ h1 | have g1 := rl_grp _ _ h1 | have g1 := rl_item _ _ h1 | have g1 := rl_query _ _ h1 | have g1 := rl_noWith _ _ h1 | have g1 := rl_term _ _ h1 | have g1 := rl_rel _ _ h1 | have g1 := rl_crit _ _ h1 | skip
    obtain ⟨k, h2, k2⟩ := bind_ok k1
    obtain ⟨p, h3, k3⟩ := bind_ok k2
    first | have g3 := rl_expr _ _ h3 | have g3 := rl_bound _ _ h3 | have g3 := rl_frame _ _ h3 | have g3 := rl_win _ _ h3 | have g3 := rl_set _ _ h3 | have g3 := rl_grp _ _ h3 | have g3 := rl_item _ _ h3 | have g3 := rl_query _ _ h3 | have g3 := rl_noWith _ _ h3 | have g3 := rl_term _ _ h3 | have g3 := rl_rel _ _ h3 | have g3 := rl_crit _ _ h3 | skip
    obtain ⟨a', h4, k4⟩ := bind_ok k3
    have hn4 := noneIs_inv h4; subst hn4
    obtain ⟨x, h5, k5⟩ := bind_ok k4
    have hn5 := rbuild_inv h5; subst hn5
    have hz := Except.ok.inj k5; subst hz; lits
  | .alias r _ n cols, e_, h => by
    rw [CR_conv_alias] at h
    obtain ⟨a, h1, k1⟩ := bind_ok h
    first | have g1 := rl_expr _ _ h1 | have g1 := rl_bound _ _ h1 | have g1 := rl_frame _ _ h1 | have g1 := rl_win _ _ h1 | have g1 := rl_set _ _ h1 | have g1 := rl_grp _ _ h1 | have g1 := rl_item _ _ h1 | have g1 := rl_query _ _ h1 | have g1 := rl_noWith _ _ h1 | have g1 := rl_term _ _ h1 | have g1 := rl_rel _ _ h1 | have g1 := rl_crit _ _ h1 | skip
    obtain ⟨s, h2, k2⟩ := bind_ok k1
    obtain ⟨cs, h3, k3⟩ := bind_ok k2
    obtain ⟨a', h4, k4⟩ := bind_ok k3
    have hn4 := noneIs_inv h4; subst hn4
    obtain ⟨x, h5, k5⟩ := bind_ok k4
    have hn5 := rbuild_inv h5; subst hn5
    have hz := Except.ok.inj k5; subst hz; lits
  | .table name, e_, h => by
    rw [CR_conv_table] at h
    obtain ⟨ns, h1, k1⟩ := bind_ok h
    obtain ⟨t, h2, k2⟩ := bind_ok k1
    have hz := Except.ok.inj k2; subst hz; lits
  | .sub q, e_, h => by
    rw [CR_conv_sub] at h
    obtain ⟨q', h1, k1⟩ := bind_ok h
    first | have g1 := rl_expr _ _ h1 | have g1 := rl_bound _ _ h1 | have g1 := rl_frame _ _ h1 | have g1 := rl_win _ _ h1 | have g1 := rl_set _ _ h1 | have g1 := rl_grp _ _ h1 | have g1 := rl_item _ _ h1 | have g1 := rl_query _ _ h1 | have g1 := rl_noWith _ _ h1 | have g1 := rl_term _ _ h1 | have g1 := rl_rel _ _ h1 | have g1 := rl_crit _ _ h1 | skip
    have hz := Except.ok.inj k1; subst hz; exact sub_lits (rl_query _ _ h1)
  | .unnest es ord, e_, h => by
    rw [CR_conv_unnest] at h
    obtain ⟨vs, h1, k1⟩ := bind_ok h
    have g1 := rl_exprs _ _ h1
    obtain ⟨x, h2, k2⟩ := bind_ok k1
    have hn2 := rbuild_inv h2; subst hn2
    have hz := Except.ok.inj k2; subst hz; lits
  | .lateral q, e_, h => by
    rw [CR_conv_lateral] at h
    obtain ⟨q', h1, k1⟩ := bind_ok h
    first | have g1 := rl_expr _ _ h1 | have g1 := rl_bound _ _ h1 | have g1 := rl_frame _ _ h1 | have g1 := rl_win _ _ h1 | have g1 := rl_set _ _ h1 | have g1 := rl_grp _ _ h1 | have g1 := rl_item _ _ h1 | have g1 := rl_query _ _ h1 | have g1 := rl_noWith _ _ h1 | have g1 := rl_term _ _ h1 | have g1 := rl_rel _ _ h1 | have g1 := rl_crit _ _ h1 | skip
    obtain ⟨q'', h2, k2⟩ := bind_ok k1
    have hn2 := noneIs_inv h2; subst hn2
    obtain ⟨x, h3, k3⟩ := bind_ok k2
    have hn3 := rbuild_inv h3; subst hn3
    have hz := Except.ok.inj k3; subst hz; lits
  | .paren r, e_, h => by
    rw [CR_conv_paren] at h
    exact rl_rel _ _ h
theorem rl_rels : ∀ (c : List CR) (e : List (Option Rel)), CR.convs c = .ok e → ReadLits (relsLits e)
  | [], e_, h => by
    rw [CR_convs_nil] at h
    have hz := Except.ok.inj h; subst hz; lits
  | s :: ss, e_, h => by
    rw [CR_convs_cons] at h
    obtain ⟨a, h1, k1⟩ := bind_ok h
    first | have g1 := rl_expr _ _ h1 | have g1 := rl_bound _ _ h1 | have g1 := rl_frame _ _ h1 | have g1 := rl_win _ _ h1 | have g1 := rl_set _ _ h1 | have g1 := rl_grp _ _ h1 | have g1 := rl_item _ _ h1 | have g1 := rl_query _ _ h1 | have g1 := rl_noWith _ _ h1 | have g1 := rl_term _ _ h1 | have g1 := rl_rel _ _ h1 | have g1 := rl_crit _ _ h1 | skip
    obtain ⟨as_, h2, k2⟩ := bind_ok k1
    have g2 := rl_rels _ _ h2
    have hz := Except.ok.inj k2; subst hz; lits
theorem rl_crit : ∀ (c : CCrit) (e : Crit), CCrit.conv c = .ok e → ReadLits (litsCrit e)
  | .on e, e_, h => by
    rw [CCrit_conv_on] at h
    obtain ⟨a, h1, k1⟩ := bind_ok h
    first | have g1 := rl_expr _ _ h1 | have g1 := rl_bound _ _ h1 | have g1 := rl_frame _ _ h1 | have g1 := rl_win _ _ h1 | have g1 := rl_set _ _ h1 | have g1 := rl_grp _ _ h1 | have g1 := rl_item _ _ h1 | have g1 := rl_query _ _ h1 | have g1 := rl_noWith _ _ h1 | have g1 := rl_term _ _ h1 | have g1 := rl_rel _ _ h1 | have g1 := rl_crit _ _ h1 | skip
    have hz := Except.ok.inj k1; subst hz; lits
  | .using cols, e_, h => by
    rw [CCrit_conv_using] at h
    obtain ⟨cs, h1, k1⟩ := bind_ok h
    have hz := Except.ok.inj k1; subst hz; lits
end

end Treeno
