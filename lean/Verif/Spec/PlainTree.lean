import Verif.Spec.Grammar
import Verif.Lemmas.TypeParse
/-!
# Parse trees that the parser reads back

`Plain c`: the parse tree `c` uses any alternatives of the expression, query and relation rules of
treeno/grammar/SqlBase.g4, and types as they are printed, with its keywords in upper case, names that cannot be taken for anything else (`Word`), and operands of
the level that their place asks for.
-/
set_option autoImplicit false
namespace Treeno
namespace Spec

/-- Non-reserved words that mean something at a place where a name may stand. -/
def special : List Str :=
  [c% "TRY_CAST", c% "ARRAY", c% "ROW", c% "INTERVAL", c% "DOUBLE", c% "ALL", c% "UNBOUNDED", c% "CURRENT",
   c% "POSITION", c% "SUBSTRING", c% "LATERAL", c% "FILTER", c% "IGNORE", c% "RESPECT", c% "OVER",
   c% "LIMIT", c% "OFFSET", c% "FETCH", c% "WINDOW", c% "TABLESAMPLE", c% "PARTITION", c% "RANGE", c% "ROWS",
   c% "GROUPS", c% "SOME", c% "ANY", c% "AT"]

/-- A name: an `identifier` that is none of the special words. -/
def Word (t : Tok) : Prop := Ident t ∧ (t.kind = .kw → upper t.text ∉ special)

/-- Names. -/
def Words (ns : List Tok) : Prop := ∀ t ∈ ns, Word t

/-- One of the keywords, in upper case. -/
def KwIn (ks : List Str) (t : Tok) : Prop := t ∈ ks.map kwT

/-- One of the symbols. -/
def SymIn (ss : List Str) (t : Tok) : Prop := t ∈ ss.map symT

/-- A string literal. -/
def PlainStr : CStr → Prop
  | .basic t => t.kind = .str
  | .unicode t e => t.kind = .ustr ∧ Opt (fun u => u.kind = .str) e

/-- The overflow behaviour of LISTAGG. -/
def PlainOverflow : COverflow → Prop
  | .error => True
  | .truncate f _ => ∀ s, f = some s → PlainStr s

/-- A number of rows: an integer or `?`. -/
def PlainCount (t : Tok) : Prop := t.kind = .int ∨ t = symT (c% "?")

/-- The rows after OFFSET. -/
def PlainOffset (o : Option (Tok × Option Tok)) : Prop :=
  ∀ p, o = some p → PlainCount p.1 ∧ Opt (KwIn [c% "ROW", c% "ROWS"]) p.2

/-- LIMIT or FETCH. -/
def PlainLimit : CLimit → Prop
  | .none => True
  | .limit t => PlainCount t ∨ t = kwT (c% "ALL")
  | .fetch f n r _ => KwIn [c% "FIRST", c% "NEXT"] f ∧ Opt PlainCount n ∧ KwIn [c% "ROW", c% "ROWS"] r

/-- The type of a cast. -/
def PlainTy (ty : CTy) (ts : List Tok) : Prop := ∃ t, Readable t ∧ ty = tyCst t ∧ ts = tyToks t

end Spec
open Spec

/-- The level up to which an expression can be an operand: a lambda expression reaches as far to the
right as it can, so it is never an operand. -/
def CE.rank : CE → Nat
  | .lam .. => 0
  | e => e.lvl

def CE.isLam : CE → Bool
  | .lam .. => true
  | _ => false

/-- A column or a dereference of one: names and dots. -/
def CE.isChain : CE → Bool
  | .col _ => true
  | .deref v _ => v.isChain
  | _ => false

/-- A scalar subquery. -/
def CE.isSub : CE → Bool
  | .sub _ => true
  | _ => false

/-- The fields of an interval. -/
def Spec.PlainField (t : Tok) : Prop :=
  KwIn [c% "YEAR", c% "MONTH", c% "DAY", c% "HOUR", c% "MINUTE", c% "SECOND"] t

/-- TRIM takes LEADING, TRAILING and BOTH for its specification. -/
def Spec.NotTrim (ts : List Tok) : Prop :=
  ∀ t us, ts = t :: us → t.kind = .kw → upper t.text ∉ [c% "LEADING", c% "TRAILING", c% "BOTH"]

/-- A name that stands directly after an expression: TO may go on with an interval. -/
def Spec.NotTo (t : Tok) : Prop := t.kind = .kw → upper t.text ≠ c% "TO"

/-- An expression in one pair of parentheses. -/
def CE.isPar : CE → Bool
  | .paren _ | .row _ | .sub _ => true
  | _ => false

/-- Nothing but a query in parentheses: after IN and after a comparison quantifier it is an expression. -/
def CQ.isBare : CQ → Bool
  | .mk _ [] (.mk (.sub _) [] none .none) => true
  | _ => false

/-- GROUP BY takes the expression for a grouping set. -/
def CE.isSet : CE → Bool
  | .paren _ | .row _ => true
  | .sub q => q.isBare
  | _ => false

/-- A subquery as a relation: in another pair of parentheses it is a subquery, and not a relation. -/
def CR.isSub : CR → Bool
  | .sub _ => true
  | _ => false

mutual
def CE.Plain : CE → Prop
  | .or_ l r => l.Plain ∧ l.isLam = false ∧ r.Plain ∧ 1 ≤ r.rank
  | .and_ l r => l.Plain ∧ 1 ≤ l.rank ∧ r.Plain ∧ 2 ≤ r.rank
  | .not_ v => v.Plain ∧ 2 ≤ v.rank
  | .cmp op l r => SymIn [c% "=", c% "<>", c% "!=", c% "<", c% "<=", c% ">", c% ">="] op ∧ l.Plain ∧ 4 ≤ l.rank ∧ r.Plain ∧ 4 ≤ r.rank
  | .between _ v l u => v.Plain ∧ 4 ≤ v.rank ∧ l.Plain ∧ 4 ≤ l.rank ∧ u.Plain ∧ 4 ≤ u.rank
  | .inList _ v es => v.Plain ∧ 4 ≤ v.rank ∧ es ≠ [] ∧ CE.Plains es
  | .inSub _ v q => v.Plain ∧ 4 ≤ v.rank ∧ q.Plain ∧ q.isBare = false
  | .like _ v p esc => v.Plain ∧ 4 ≤ v.rank ∧ p.Plain ∧ 4 ≤ p.rank ∧ CE.PlainOpt 4 esc
  | .isNull _ v => v.Plain ∧ 4 ≤ v.rank
  | .distinct _ l r => l.Plain ∧ 4 ≤ l.rank ∧ r.Plain ∧ 4 ≤ r.rank
  | .quantified op k l q => SymIn [c% "=", c% "<>", c% "!=", c% "<", c% "<=", c% ">", c% ">="] op ∧ KwIn [c% "ALL", c% "SOME", c% "ANY"] k ∧ l.Plain ∧ 4 ≤ l.rank ∧ q.Plain ∧ q.isBare = false
  | .concat l r => l.Plain ∧ 4 ≤ l.rank ∧ r.Plain ∧ 5 ≤ r.rank
  | .arith op l r => l.Plain ∧ r.Plain ∧ ((SymIn [c% "+", c% "-"] op ∧ 5 ≤ l.rank ∧ 6 ≤ r.rank) ∨ (SymIn [c% "*", c% "/", c% "%"] op ∧ 6 ≤ l.rank ∧ 7 ≤ r.rank))
  | .atZone v z => v.Plain ∧ 7 ≤ v.rank ∧ v.isSign = false ∧ z.Plain ∧ z.isZone = true
  | .sign op v => v.Plain ∧ 7 ≤ v.rank ∧ (op = symT (c% "+") ∨ (op = symT (c% "-") ∧ ∀ t ts, v.yield = t :: ts → ¬ Num t))
  | .null => True
  | .interval sg s f t => Opt (SymIn [c% "+", c% "-"]) sg ∧ PlainStr s ∧ PlainField f ∧ Opt PlainField t
  | .typeCtor n s => Word n ∧ PlainStr s
  | .doublePrecision s => PlainStr s
  | .num _ t => Num t
  | .bool t => KwIn [c% "TRUE", c% "FALSE"] t
  | .str s => PlainStr s
  | .binary t => t.kind = .bin
  | .param => True
  | .row es => 2 ≤ es.length ∧ CE.Plains es
  | .rowKw es => es ≠ [] ∧ CE.Plains es
  | .listagg q e sep ov ob => Opt (KwIn [c% "DISTINCT", c% "ALL"]) q ∧ e.Plain ∧ (∀ s, sep = some s → PlainStr s) ∧ (∀ o, ov = some o → PlainOverflow o) ∧ ob ≠ [] ∧ CSort.Plains ob
  | .callStar n l f w => n ≠ [] ∧ Words n ∧ Opt Word l ∧ CE.PlainOpt 0 f ∧ CWin.PlainOpt w
  | .call n q args ob f ign w => n ≠ [] ∧ Words n ∧ Opt (KwIn [c% "DISTINCT", c% "ALL"]) q ∧ (q.isSome → args ≠ []) ∧ CE.Plains args ∧ CSort.Plains ob ∧ CE.PlainOpt 0 f ∧ (ign.isSome → w.isSome) ∧ CWin.PlainOpt w
  | .lam p ids b => Words ids ∧ (p = false → ids.length = 1) ∧ b.Plain
  | .sub q => q.Plain
  | .case v ws e => CE.PlainOpt 0 v ∧ ws ≠ [] ∧ CWhen.Plains ws ∧ CE.PlainOpt 0 e
  | .cast _ e ty ts => e.Plain ∧ PlainTy ty ts
  | .array es => CE.Plains es
  | .subscript v i => v.Plain ∧ 8 ≤ v.rank ∧ i.Plain ∧ 4 ≤ i.rank
  | .col t => Word t
  | .deref v n => v.Plain ∧ 8 ≤ v.rank ∧ Word n
  | .dateTime t p => (t = kwT (c% "CURRENT_DATE") ∧ p = none) ∨ (KwIn [c% "CURRENT_TIME", c% "CURRENT_TIMESTAMP", c% "LOCALTIME", c% "LOCALTIMESTAMP"] t ∧ Opt (fun t => t.kind = .int) p)
  | .session t => KwIn [c% "CURRENT_USER", c% "CURRENT_CATALOG", c% "CURRENT_SCHEMA", c% "CURRENT_PATH"] t
  | .normalize v f => v.Plain ∧ 4 ≤ v.rank ∧ Opt (KwIn [c% "NFD", c% "NFC", c% "NFKD", c% "NFKC"]) f
  | .paren e => e.Plain ∧ e.isSub = false
  | .exists_ q => q.Plain
  | .position l r => l.Plain ∧ 4 ≤ l.rank ∧ r.Plain ∧ 4 ≤ r.rank
  | .substring v f n => v.Plain ∧ 4 ≤ v.rank ∧ f.Plain ∧ 4 ≤ f.rank ∧ CE.PlainOpt 4 n
  | .extract t v => Word t ∧ v.Plain ∧ 4 ≤ v.rank
  | .trimFrom s c v => Opt (KwIn [c% "LEADING", c% "TRAILING", c% "BOTH"]) s ∧ CE.PlainOpt 4 c ∧ (s = none → ∀ e, c = some e → NotTrim e.yield) ∧ v.Plain ∧ 4 ≤ v.rank
  | .trim v c => v.Plain ∧ 4 ≤ v.rank ∧ NotTrim v.yield ∧ CE.PlainOpt 4 c
  | .grouping ns => ∀ n ∈ ns, n ≠ [] ∧ Words n
def CE.Plains : List CE → Prop
  | [] => True
  | e :: es => e.Plain ∧ CE.Plains es
def CE.PlainOpt (p : Nat) : Option CE → Prop
  | none => True
  | some e => e.Plain ∧ p ≤ e.rank
def CWhen.Plains : List CWhen → Prop
  | [] => True
  | .mk c v :: ws => c.Plain ∧ v.Plain ∧ CWhen.Plains ws
def CSort.Plains : List CSort → Prop
  | [] => True
  | .mk e o n :: ss => e.Plain ∧ Opt (KwIn [c% "ASC", c% "DESC"]) o ∧ Opt (KwIn [c% "FIRST", c% "LAST"]) n ∧ CSort.Plains ss
def CBound.Plain : CBound → Prop
  | .unbounded t => KwIn [c% "PRECEDING", c% "FOLLOWING"] t
  | .current => True
  | .bounded e t => e.Plain ∧ KwIn [c% "PRECEDING", c% "FOLLOWING"] t
def CFrame.Plain : CFrame → Prop
  | .none => True
  | .from_ t b => KwIn [c% "RANGE", c% "ROWS", c% "GROUPS"] t ∧ b.Plain
  | .between t a b => KwIn [c% "RANGE", c% "ROWS", c% "GROUPS"] t ∧ a.Plain ∧ b.Plain
def CWin.Plain : CWin → Prop
  | .ref t => Word t
  | .spec p ps ob f => Opt Word p ∧ CE.Plains ps ∧ CSort.Plains ob ∧ f.Plain
def CWin.PlainOpt : Option CWin → Prop
  | none => True
  | some w => w.Plain
def CSet.Plain : CSet → Prop
  | .paren es => CE.Plains es
  | .expr e => e.Plain ∧ e.isSet = false
def CSet.Plains : List CSet → Prop
  | [] => True
  | s :: ss => s.Plain ∧ CSet.Plains ss
def CGrp.Plain : CGrp → Prop
  | .single s => s.Plain
  | .rollup es => CE.Plains es
  | .cube es => CE.Plains es
  | .sets ss => ss ≠ [] ∧ CSet.Plains ss
def CGrp.Plains : List CGrp → Prop
  | [] => True
  | s :: ss => s.Plain ∧ CGrp.Plains ss
def CItem.Plain : CItem → Prop
  | .expr e b a => e.Plain ∧ Opt Word a ∧ (b = true → a.isSome) ∧ (b = false → Opt NotTo a)
  | .allOf e cols => e.Plain ∧ 8 ≤ e.rank ∧ Words cols
  | .all => True
def CItem.Plains : List CItem → Prop
  | [] => True
  | s :: ss => s.Plain ∧ CItem.Plains ss
def CWinDef.Plains : List CWinDef → Prop
  | [] => True
  | .mk n w :: ws => Word n ∧ w.isSpec ∧ w.Plain ∧ CWinDef.Plains ws
def CQ.Plain : CQ → Prop
  | .mk rc w b => (rc = true → w ≠ []) ∧ CNamed.Plains w ∧ b.Plain
def CNamed.Plains : List CNamed → Prop
  | [] => True
  | .mk n cols q :: ns => Word n ∧ Words cols ∧ q.Plain ∧ CNamed.Plains ns
def CQN.Plain : CQN → Prop
  | .mk t ob off lim => t.Plain ∧ CSort.Plains ob ∧ PlainOffset off ∧ PlainLimit lim
def CQT.Plain : CQT → Prop
  | .set op q l r => KwIn [c% "UNION", c% "EXCEPT", c% "INTERSECT"] op ∧ Opt (KwIn [c% "DISTINCT", c% "ALL"]) q ∧ l.Plain ∧ r.Plain ∧ (if op = kwT (c% "INTERSECT") then 1 ≤ l.lvl ∧ 2 ≤ r.lvl else 1 ≤ r.lvl)
  | .spec q items fr wh gq gs hv ws => Opt (KwIn [c% "DISTINCT", c% "ALL"]) q ∧ items ≠ [] ∧ CItem.Plains items ∧ CR.Plains fr ∧ CE.PlainOpt 0 wh ∧ Opt (KwIn [c% "DISTINCT", c% "ALL"]) gq ∧ (gq.isSome → gs ≠ []) ∧ CGrp.Plains gs ∧ CE.PlainOpt 0 hv ∧ CWinDef.Plains ws
  | .table n => n ≠ [] ∧ Words n
  | .values es => es ≠ [] ∧ CE.Plains es
  | .sub q => q.Plain
def CR.Plain : CR → Prop
  | .cross l r => l.Plain ∧ r.Plain ∧ 1 ≤ r.lvl
  | .join l _ r c => l.Plain ∧ r.Plain ∧ c.Plain
  | .natural l _ r => l.Plain ∧ r.Plain ∧ 1 ≤ r.lvl
  | .sample r t e => r.Plain ∧ 2 ≤ r.lvl ∧ KwIn [c% "BERNOULLI", c% "SYSTEM"] t ∧ e.Plain
  | .alias r _ n cols => r.Plain ∧ 3 ≤ r.lvl ∧ Word n ∧ Words cols
  | .table n => n ≠ [] ∧ Words n
  | .sub q => q.Plain
  | .unnest es _ => es ≠ [] ∧ CE.Plains es
  | .lateral q => q.Plain
  | .paren r => r.Plain ∧ r.isSub = false
def CR.Plains : List CR → Prop
  | [] => True
  | s :: ss => s.Plain ∧ CR.Plains ss
def CCrit.Plain : CCrit → Prop
  | .on e => e.Plain
  | .using cols => cols ≠ [] ∧ Words cols
end

end Treeno
