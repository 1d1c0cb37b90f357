import Verif.Spec.Yield
import Verif.Spec.TypeGrammar
/-!
# The grammar of expressions, queries and relations

`Wf c`: the parse tree `c` follows the rules of treeno/grammar/SqlBase.g4 174-720.  A tree says which
alternative it uses by its constructor; what is left is that the operands are of the rule that the
alternative asks for (`lvl`), that the words stored in it are the ones the alternative allows, and that
lists which may not be empty are not.
-/
namespace Treeno
namespace Spec

/-- One of the keywords. -/
def Kof (ks : List Str) (t : Tok) : Prop := t.kind = .kw ∧ upper t.text ∈ ks
/-- One of the symbols. -/
def Sof (ss : List Str) (t : Tok) : Prop := t.kind = .sym ∧ t.text ∈ ss
/-- `comparisonOperator`, SqlBase.g4 628-630. -/
def Cmp (t : Tok) : Prop := Sof [c% "=", c% "<>", c% "!=", c% "<", c% "<=", c% ">", c% ">="] t
/-- `setQuantifier`, SqlBase.g4 288-291. -/
def Quant (t : Tok) : Prop := Kof [c% "DISTINCT", c% "ALL"] t
/-- `number`, SqlBase.g4 822-827, without its sign. -/
def Num (t : Tok) : Prop := t.kind = .int ∨ t.kind = .dec ∨ t.kind = .dbl
/-- An optional token of a class. -/
def Opt (p : Tok → Prop) (o : Option Tok) : Prop := ∀ t, o = some t → p t
/-- Names. -/
def Idents (ns : List Tok) : Prop := ∀ t ∈ ns, Ident t

/-- `rowCount`, SqlBase.g4 226-229. -/
def Count (t : Tok) : Prop := t.kind = .int ∨ S (c% "?") t

/-- ROW or ROWS. -/
def Rows (t : Tok) : Prop := Kof [c% "ROW", c% "ROWS"] t

end Spec
open Spec

def CStr.Wf : CStr → Prop
  | .basic t => t.kind = .str
  | .unicode t e => t.kind = .ustr ∧ Opt (fun t => t.kind = .str) e

def COverflow.Wf : COverflow → Prop
  | .error => True
  | .truncate f _ => ∀ s, f = some s → s.Wf

def CLimit.Wf : CLimit → Prop
  | .none => True
  | .limit t => Count t ∨ K (c% "ALL") t
  | .fetch f n r _ => Kof [c% "FIRST", c% "NEXT"] f ∧ Opt Count n ∧ Rows r

namespace Spec
/-- An optional string. -/
def OptStr (o : Option CStr) : Prop := ∀ s, o = some s → s.Wf
/-- An optional offset. -/
def OptOffset (o : Option (Tok × Option Tok)) : Prop := ∀ p, o = some p → Count p.1 ∧ Opt Rows p.2
end Spec

/-- The rule a tree belongs to: 0 OR, 1 AND, 2 NOT (`booleanExpression` and its alternatives), 3 a
predicate, 4 `||`, 5 `+ -`, 6 `* / %`, 7 signs and AT (`valueExpression`), 8 `primaryExpression`. -/
def CE.lvl : CE → Nat
  | .or_ .. => 0
  | .and_ .. => 1
  | .not_ .. => 2
  | .cmp .. | .between .. | .inList .. | .inSub .. | .like .. | .isNull .. | .distinct .. | .quantified .. => 3
  | .concat .. => 4
  | .arith op .. => if op.text = c% "+" ∨ op.text = c% "-" then 5 else 6
  | .sign .. | .atZone .. => 7
  | _ => 8

/-- A sign; AT binds tighter. -/
def CE.isSign : CE → Bool
  | .sign .. => true
  | _ => false

/-- The two forms of `timeZoneSpecifier`. -/
def CE.isZone : CE → Bool
  | .interval .. | .str _ => true
  | _ => false

/-- `queryTerm`: 0 UNION and EXCEPT, 1 INTERSECT, 2 `queryPrimary`. -/
def CQT.lvl : CQT → Nat
  | .set op .. => if upper op.text = c% "INTERSECT" then 1 else 0
  | _ => 2

/-- `relation` 0, `sampledRelation` 1, `aliasedRelation` 2, `relationPrimary` 3. -/
def CR.lvl : CR → Nat
  | .cross .. | .join .. | .natural .. => 0
  | .sample .. => 1
  | .alias .. => 2
  | _ => 3

/-- A window in parentheses. -/
def CWin.isSpec : CWin → Prop
  | .spec .. => True
  | .ref _ => False

mutual
def CE.Wf : CE → Prop
  | .or_ l r => l.Wf ∧ r.Wf ∧ 1 ≤ r.lvl
  | .and_ l r => l.Wf ∧ 1 ≤ l.lvl ∧ r.Wf ∧ 2 ≤ r.lvl
  | .not_ v => v.Wf ∧ 2 ≤ v.lvl
  | .cmp op l r => Cmp op ∧ l.Wf ∧ 4 ≤ l.lvl ∧ r.Wf ∧ 4 ≤ r.lvl
  | .between _ v l u => v.Wf ∧ 4 ≤ v.lvl ∧ l.Wf ∧ 4 ≤ l.lvl ∧ u.Wf ∧ 4 ≤ u.lvl
  | .inList _ v es => v.Wf ∧ 4 ≤ v.lvl ∧ es ≠ [] ∧ CE.Wfs es
  | .inSub _ v q => v.Wf ∧ 4 ≤ v.lvl ∧ q.Wf
  | .like _ v p esc => v.Wf ∧ 4 ≤ v.lvl ∧ p.Wf ∧ 4 ≤ p.lvl ∧ CE.WfOpt 4 esc
  | .isNull _ v => v.Wf ∧ 4 ≤ v.lvl
  | .distinct _ l r => l.Wf ∧ 4 ≤ l.lvl ∧ r.Wf ∧ 4 ≤ r.lvl
  | .quantified op k l q => Cmp op ∧ Kof [c% "ALL", c% "SOME", c% "ANY"] k ∧ l.Wf ∧ 4 ≤ l.lvl ∧ q.Wf
  | .concat l r => l.Wf ∧ 4 ≤ l.lvl ∧ r.Wf ∧ 5 ≤ r.lvl
  | .arith op l r => Sof [c% "+", c% "-", c% "*", c% "/", c% "%"] op ∧ l.Wf ∧ r.Wf ∧ (if op.text = c% "+" ∨ op.text = c% "-" then 5 ≤ l.lvl ∧ 6 ≤ r.lvl else 6 ≤ l.lvl ∧ 7 ≤ r.lvl)
  | .sign op v => Sof [c% "+", c% "-"] op ∧ v.Wf ∧ 7 ≤ v.lvl
  | .atZone v z => v.Wf ∧ 7 ≤ v.lvl ∧ v.isSign = false ∧ z.Wf ∧ z.isZone = true
  | .null => True
  | .interval sg s f t => Opt (Sof [c% "+", c% "-"]) sg ∧ s.Wf ∧ IvField f ∧ Opt IvField t
  | .typeCtor n s => Ident n ∧ s.Wf
  | .doublePrecision s => s.Wf
  | .num _ t => Num t
  | .bool t => Kof [c% "TRUE", c% "FALSE"] t
  | .str s => s.Wf
  | .binary t => t.kind = .bin
  | .param => True
  | .row es => 2 ≤ es.length ∧ CE.Wfs es
  | .rowKw es => es ≠ [] ∧ CE.Wfs es
  | .listagg q e sep ov ob => Opt Quant q ∧ e.Wf ∧ OptStr sep ∧ (∀ o, ov = some o → o.Wf) ∧ ob ≠ [] ∧ CSort.Wfs ob
  | .callStar n l f w => n ≠ [] ∧ Idents n ∧ Opt Ident l ∧ CE.WfOpt 0 f ∧ CWin.WfOpt w
  | .call n q args ob f ign w => n ≠ [] ∧ Idents n ∧ Opt Quant q ∧ (q.isSome → args ≠ []) ∧ CE.Wfs args ∧ CSort.Wfs ob ∧ CE.WfOpt 0 f ∧ (ign.isSome → w.isSome) ∧ CWin.WfOpt w
  | .lam p ids b => Idents ids ∧ (p = false → ids.length = 1) ∧ b.Wf
  | .sub q => q.Wf
  | .case v ws e => CE.WfOpt 0 v ∧ ws ≠ [] ∧ CWhen.Wfs ws ∧ CE.WfOpt 0 e
  | .cast _ e ty ts => e.Wf ∧ GTy ty ts
  | .array es => CE.Wfs es
  | .subscript v i => v.Wf ∧ 8 ≤ v.lvl ∧ i.Wf ∧ 4 ≤ i.lvl
  | .col t => Ident t
  | .deref v n => v.Wf ∧ 8 ≤ v.lvl ∧ Ident n
  | .dateTime t p => (K (c% "CURRENT_DATE") t ∧ p = none) ∨ (Kof [c% "CURRENT_TIME", c% "CURRENT_TIMESTAMP", c% "LOCALTIME", c% "LOCALTIMESTAMP"] t ∧ Opt (fun t => t.kind = .int) p)
  | .session t => Kof [c% "CURRENT_USER", c% "CURRENT_CATALOG", c% "CURRENT_SCHEMA", c% "CURRENT_PATH"] t
  | .normalize v f => v.Wf ∧ 4 ≤ v.lvl ∧ Opt (Kof [c% "NFD", c% "NFC", c% "NFKD", c% "NFKC"]) f
  | .paren e => e.Wf
  | .exists_ q => q.Wf
  | .position l r => l.Wf ∧ 4 ≤ l.lvl ∧ r.Wf ∧ 4 ≤ r.lvl
  | .substring v f n => v.Wf ∧ 4 ≤ v.lvl ∧ f.Wf ∧ 4 ≤ f.lvl ∧ CE.WfOpt 4 n
  | .extract t v => Ident t ∧ v.Wf ∧ 4 ≤ v.lvl
  | .trimFrom s c v => Opt (Kof [c% "LEADING", c% "TRAILING", c% "BOTH"]) s ∧ CE.WfOpt 4 c ∧ v.Wf ∧ 4 ≤ v.lvl
  | .trim v c => v.Wf ∧ 4 ≤ v.lvl ∧ CE.WfOpt 4 c
  | .grouping ns => ∀ n ∈ ns, n ≠ [] ∧ Idents n
def CE.Wfs : List CE → Prop
  | [] => True
  | e :: es => e.Wf ∧ CE.Wfs es
def CE.WfOpt (p : Nat) : Option CE → Prop
  | none => True
  | some e => e.Wf ∧ p ≤ e.lvl
def CWhen.Wfs : List CWhen → Prop
  | [] => True
  | .mk c v :: ws => c.Wf ∧ v.Wf ∧ CWhen.Wfs ws
def CSort.Wfs : List CSort → Prop
  | [] => True
  | .mk e o n :: ss => e.Wf ∧ Opt (Kof [c% "ASC", c% "DESC"]) o ∧ Opt (Kof [c% "FIRST", c% "LAST"]) n ∧ CSort.Wfs ss
def CBound.Wf : CBound → Prop
  | .unbounded t => Kof [c% "PRECEDING", c% "FOLLOWING"] t
  | .current => True
  | .bounded e t => e.Wf ∧ Kof [c% "PRECEDING", c% "FOLLOWING"] t
def CFrame.Wf : CFrame → Prop
  | .none => True
  | .from_ t b => Kof [c% "RANGE", c% "ROWS", c% "GROUPS"] t ∧ b.Wf
  | .between t a b => Kof [c% "RANGE", c% "ROWS", c% "GROUPS"] t ∧ a.Wf ∧ b.Wf
def CWin.Wf : CWin → Prop
  | .ref t => Ident t
  | .spec p ps ob f => Opt Ident p ∧ CE.Wfs ps ∧ CSort.Wfs ob ∧ f.Wf
def CWin.WfOpt : Option CWin → Prop
  | none => True
  | some w => w.Wf
def CSet.Wf : CSet → Prop
  | .paren es => CE.Wfs es
  | .expr e => e.Wf
def CSet.Wfs : List CSet → Prop
  | [] => True
  | s :: ss => s.Wf ∧ CSet.Wfs ss
def CGrp.Wf : CGrp → Prop
  | .single s => s.Wf
  | .rollup es => CE.Wfs es
  | .cube es => CE.Wfs es
  | .sets ss => ss ≠ [] ∧ CSet.Wfs ss
def CGrp.Wfs : List CGrp → Prop
  | [] => True
  | s :: ss => s.Wf ∧ CGrp.Wfs ss
def CItem.Wf : CItem → Prop
  | .expr e b a => e.Wf ∧ Opt Ident a ∧ (b = true → a.isSome)
  | .allOf e cols => e.Wf ∧ 8 ≤ e.lvl ∧ Idents cols
  | .all => True
def CItem.Wfs : List CItem → Prop
  | [] => True
  | s :: ss => s.Wf ∧ CItem.Wfs ss
def CWinDef.Wfs : List CWinDef → Prop
  | [] => True
  | .mk n w :: ws => Ident n ∧ w.isSpec ∧ w.Wf ∧ CWinDef.Wfs ws
def CQ.Wf : CQ → Prop
  | .mk rc w b => (rc = true → w ≠ []) ∧ CNamed.Wfs w ∧ b.Wf
def CNamed.Wfs : List CNamed → Prop
  | [] => True
  | .mk n cols q :: ns => Ident n ∧ Idents cols ∧ q.Wf ∧ CNamed.Wfs ns
def CQN.Wf : CQN → Prop
  | .mk t ob off lim => t.Wf ∧ CSort.Wfs ob ∧ OptOffset off ∧ lim.Wf
def CQT.Wf : CQT → Prop
  | .set op q l r => Kof [c% "UNION", c% "EXCEPT", c% "INTERSECT"] op ∧ Opt Quant q ∧ l.Wf ∧ r.Wf ∧ (if upper op.text = c% "INTERSECT" then 1 ≤ l.lvl ∧ 2 ≤ r.lvl else 1 ≤ r.lvl)
  | .spec q items fr wh gq gs hv ws => Opt Quant q ∧ items ≠ [] ∧ CItem.Wfs items ∧ CR.Wfs fr ∧ CE.WfOpt 0 wh ∧ Opt Quant gq ∧ (gq.isSome → gs ≠ []) ∧ CGrp.Wfs gs ∧ CE.WfOpt 0 hv ∧ CWinDef.Wfs ws
  | .table n => n ≠ [] ∧ Idents n
  | .values es => es ≠ [] ∧ CE.Wfs es
  | .sub q => q.Wf
def CR.Wf : CR → Prop
  | .cross l r => l.Wf ∧ r.Wf ∧ 1 ≤ r.lvl
  | .join l _ r c => l.Wf ∧ r.Wf ∧ c.Wf
  | .natural l _ r => l.Wf ∧ r.Wf ∧ 1 ≤ r.lvl
  | .sample r t e => r.Wf ∧ 2 ≤ r.lvl ∧ Kof [c% "BERNOULLI", c% "SYSTEM"] t ∧ e.Wf
  | .alias r _ n cols => r.Wf ∧ 3 ≤ r.lvl ∧ Ident n ∧ Idents cols
  | .table n => n ≠ [] ∧ Idents n
  | .sub q => q.Wf
  | .unnest es _ => es ≠ [] ∧ CE.Wfs es
  | .lateral q => q.Wf
  | .paren r => r.Wf
def CR.Wfs : List CR → Prop
  | [] => True
  | s :: ss => s.Wf ∧ CR.Wfs ss
def CCrit.Wf : CCrit → Prop
  | .on e => e.Wf
  | .using cols => cols ≠ [] ∧ Idents cols
end

namespace Spec

/-- A token with its keyword in upper case. -/
def canon (t : Tok) : Tok := if t.kind = .kw then ⟨.kw, upper t.text⟩ else t

/-- The tokens `ts` start with those of a tree, up to the case of keywords, and go on with `rest`. -/
def Reads (yield ts rest : List Tok) : Prop :=
  ∃ used, ts = used ++ rest ∧ used.map canon = yield.map canon

end Spec
end Treeno
