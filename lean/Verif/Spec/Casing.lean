import Verif.Cst
/-!
# The words whose spelling is read

`c.spelled`: the tokens of a parse tree whose text ends up in the query tree or is compared as it is written.
They are the names (of columns, tables, windows, parameters, aliases and of the types of literals, but not
of functions and other types), the fields of intervals, the numbers in types and after the current-time
functions, and the words that treeno/builder/convert.py compares without changing their case: the quantifiers of
SELECT, GROUP BY and set operations (326), ALL after LIMIT (282-289), the normal forms (560) and the sampling
methods (1087).
-/
namespace Treeno

namespace Spec
/-- The reserved words (SqlBase.g4 828-856 lists the others) except DISTINCT. -/
def structural (w : Str) : Bool := keywords.contains w && !nonReserved.contains w && w != c% "DISTINCT"

/-- Two tokens that are the same, or the same keyword, one of `p`, in different case. -/
def SameWord (p : Str → Bool) (t u : Tok) : Prop :=
  t = u ∨ (t.kind = .kw ∧ u.kind = .kw ∧ upper t.text = upper u.text ∧ p (upper t.text) = true)

/-- Two token lists that only differ in the case of some keywords. -/
inductive SameWords (p : Str → Bool) : List Tok → List Tok → Prop
  | nil : SameWords p [] []
  | cons {t u ts us} : SameWord p t u → SameWords p ts us → SameWords p (t :: ts) (u :: us)
end Spec

/-- LIMIT ALL. -/
def CLimit.spelled : CLimit → List Tok
  | .limit t => [t]
  | _ => []

mutual
def CTy.spelled : CTy → List Tok
  | .row fields => CField.spelleds fields
  | .interval from_ to => [from_] ++ to.toList
  | .datetime _ precision _ => CTParam.spelledOpt precision
  | .doublePrecision => []
  | .legacyArray t => t.spelled
  | .legacyMap k v => k.spelled ++ v.spelled
  | .arrayOf t _ => t.spelled
  | .generic _ params => CTParam.spelleds params
def CField.spelled : CField → List Tok
  | .mk _ t => t.spelled
def CTParam.spelled : CTParam → List Tok
  | .int t => [t]
  | .ty t => t.spelled
def CField.spelleds : List CField → List Tok
  | [] => []
  | x :: xs => x.spelled ++ CField.spelleds xs
def CTParam.spelledOpt : Option CTParam → List Tok
  | none => []
  | some x => x.spelled
def CTParam.spelleds : List CTParam → List Tok
  | [] => []
  | x :: xs => x.spelled ++ CTParam.spelleds xs
end

mutual
def CE.spelled : CE → List Tok
  | .or_ l r => l.spelled ++ r.spelled
  | .and_ l r => l.spelled ++ r.spelled
  | .not_ v => v.spelled
  | .cmp _ l r => l.spelled ++ r.spelled
  | .between _ v l u => v.spelled ++ l.spelled ++ u.spelled
  | .inList _ v es => v.spelled ++ CE.spelleds es
  | .inSub _ v q => v.spelled ++ q.spelled
  | .like _ v p esc => v.spelled ++ p.spelled ++ CE.spelledOpt esc
  | .isNull _ v => v.spelled
  | .distinct _ l r => l.spelled ++ r.spelled
  | .quantified _ _ l q => l.spelled ++ q.spelled
  | .concat l r => l.spelled ++ r.spelled
  | .arith _ l r => l.spelled ++ r.spelled
  | .sign _ v => v.spelled
  | .atZone v z => v.spelled ++ z.spelled
  | .null => []
  | .interval _ _ from_ to => [from_] ++ to.toList
  | .typeCtor name _ => [name]
  | .doublePrecision _ => []
  | .num _ _ => []
  | .bool _ => []
  | .str _ => []
  | .binary _ => []
  | .param => []
  | .row es => CE.spelleds es
  | .rowKw es => CE.spelleds es
  | .listagg _ e _ _ ob => e.spelled ++ CSort.spelleds ob
  | .callStar _ label filter over => label.toList ++ CE.spelledOpt filter ++ CWin.spelledOpt over
  | .call _ _ args ob filter _ over => CE.spelleds args ++ CSort.spelleds ob ++ CE.spelledOpt filter ++ CWin.spelledOpt over
  | .lam _ ids body => ids ++ body.spelled
  | .sub q => q.spelled
  | .case v ws e => CE.spelledOpt v ++ CWhen.spelleds ws ++ CE.spelledOpt e
  | .cast _ e ty _ => e.spelled ++ ty.spelled
  | .array es => CE.spelleds es
  | .subscript v i => v.spelled ++ i.spelled
  | .col t => [t]
  | .deref v n => v.spelled ++ [n]
  | .dateTime _ prec => prec.toList
  | .session _ => []
  | .normalize v form => v.spelled ++ form.toList
  | .paren e => e.spelled
  | .exists_ q => q.spelled
  | .position l r => l.spelled ++ r.spelled
  | .substring v f n => v.spelled ++ f.spelled ++ CE.spelledOpt n
  | .extract _ v => v.spelled
  | .trimFrom _ char v => CE.spelledOpt char ++ v.spelled
  | .trim v char => v.spelled ++ CE.spelledOpt char
  | .grouping _ => []
def CWhen.spelled : CWhen → List Tok
  | .mk c v => c.spelled ++ v.spelled
def CSort.spelled : CSort → List Tok
  | .mk e _ _ => e.spelled
def CBound.spelled : CBound → List Tok
  | .unbounded _ => []
  | .current => []
  | .bounded e _ => e.spelled
def CFrame.spelled : CFrame → List Tok
  | .none => []
  | .from_ _ b => b.spelled
  | .between _ a b => a.spelled ++ b.spelled
def CWin.spelled : CWin → List Tok
  | .ref t => [t]
  | .spec parent parts ob frame => parent.toList ++ CE.spelleds parts ++ CSort.spelleds ob ++ frame.spelled
def CSet.spelled : CSet → List Tok
  | .paren es => CE.spelleds es
  | .expr e => e.spelled
def CGrp.spelled : CGrp → List Tok
  | .single s => s.spelled
  | .rollup es => CE.spelleds es
  | .cube es => CE.spelleds es
  | .sets ss => CSet.spelleds ss
def CItem.spelled : CItem → List Tok
  | .expr e _ alias => e.spelled ++ alias.toList
  | .allOf e cols => e.spelled ++ cols
  | .all => []
def CWinDef.spelled : CWinDef → List Tok
  | .mk name w => [name] ++ w.spelled
def CQ.spelled : CQ → List Tok
  | .mk _ w body => CNamed.spelleds w ++ body.spelled
def CNamed.spelled : CNamed → List Tok
  | .mk name cols q => [name] ++ cols ++ q.spelled
def CQN.spelled : CQN → List Tok
  | .mk t ob _ limit => t.spelled ++ CSort.spelleds ob ++ limit.spelled
def CQT.spelled : CQT → List Tok
  | .set _ quant l r => quant.toList ++ l.spelled ++ r.spelled
  | .spec quant items from_ where_ gquant groups having wins => quant.toList ++ CItem.spelleds items ++ CR.spelleds from_ ++ CE.spelledOpt where_ ++ gquant.toList ++ CGrp.spelleds groups ++ CE.spelledOpt having ++ CWinDef.spelleds wins
  | .table name => name
  | .values es => CE.spelleds es
  | .sub q => q.spelled
def CR.spelled : CR → List Tok
  | .cross l r => l.spelled ++ r.spelled
  | .join l _ r c => l.spelled ++ r.spelled ++ c.spelled
  | .natural l _ r => l.spelled ++ r.spelled
  | .sample r t e => r.spelled ++ [t] ++ e.spelled
  | .alias r _ name cols => r.spelled ++ [name] ++ cols
  | .table name => name
  | .sub q => q.spelled
  | .unnest es _ => CE.spelleds es
  | .lateral q => q.spelled
  | .paren r => r.spelled
def CCrit.spelled : CCrit → List Tok
  | .on e => e.spelled
  | .using cols => cols
def CE.spelledOpt : Option CE → List Tok
  | none => []
  | some x => x.spelled
def CE.spelleds : List CE → List Tok
  | [] => []
  | x :: xs => x.spelled ++ CE.spelleds xs
def CGrp.spelleds : List CGrp → List Tok
  | [] => []
  | x :: xs => x.spelled ++ CGrp.spelleds xs
def CItem.spelleds : List CItem → List Tok
  | [] => []
  | x :: xs => x.spelled ++ CItem.spelleds xs
def CNamed.spelleds : List CNamed → List Tok
  | [] => []
  | x :: xs => x.spelled ++ CNamed.spelleds xs
def CR.spelleds : List CR → List Tok
  | [] => []
  | x :: xs => x.spelled ++ CR.spelleds xs
def CSet.spelleds : List CSet → List Tok
  | [] => []
  | x :: xs => x.spelled ++ CSet.spelleds xs
def CSort.spelleds : List CSort → List Tok
  | [] => []
  | x :: xs => x.spelled ++ CSort.spelleds xs
def CWhen.spelleds : List CWhen → List Tok
  | [] => []
  | x :: xs => x.spelled ++ CWhen.spelleds xs
def CWin.spelledOpt : Option CWin → List Tok
  | none => []
  | some x => x.spelled
def CWinDef.spelleds : List CWinDef → List Tok
  | [] => []
  | x :: xs => x.spelled ++ CWinDef.spelleds xs
end

end Treeno
