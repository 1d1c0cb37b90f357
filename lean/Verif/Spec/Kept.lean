import Verif.Spec.SqlMeaning
/-!
# SQL whose meaning the visitor keeps

What the visitor of the parse tree changes or drops, stated on the parse tree:

* quotes inside of quoted names and strings stay doubled;
* DISTINCT in a call is dropped, and so is a FETCH clause;
* the last two of three arguments of APPROX_PERCENTILE are swapped;
* a call of a quoted name such as `"current_date"()` is read as the function with a syntax of its own;
* a name of four or more parts loses the first ones; `a.b.*` loses `a`; `(a).b` is read as `a.b`; empty names
  before a dot disappear;
* `OVER w`, and a window specification that refers to another window and has no frame, get the default frame;
* of two windows of the same name only the last is kept;
* a query in parentheses, used as a query, disappears;
* the negative of a decimal literal is rounded to 28 digits, and zero loses its sign;
* signs inside of the string of an interval are removed all at once;
* EXISTS, POSITION, SUBSTRING, EXTRACT, TRIM and GROUPING are read as nothing at all.

`kept` says that none of this occurs.
-/
set_option autoImplicit false
namespace Treeno
namespace Spec

/-- Quoted, with no quote inside. -/
def plainlyQuoted (q : Char) (s : Str) : Bool := s == q :: (inner s ++ [q]) && !(inner s).contains q

def keptName (t : Tok) : Bool := t.kind != .quoted || plainlyQuoted '"' t.text
def keptOptName : Option Tok → Bool
  | none => true
  | some t => keptName t
/-- A name that matters only if it is not empty. -/
def keptPrefix : Option Tok → Bool
  | none => true
  | some t => keptName t && !(nameOf t).isEmpty
/-- One character, other than a quote. -/
def keptEscape : Option Tok → Bool
  | none => true
  | some t => plainlyQuoted '\'' t.text && (inner t.text).length == 1
def keptStr : CStr → Bool
  | .basic t => plainlyQuoted '\'' t.text
  | .unicode t e => t.text == 'U' :: '&' :: t.text.drop 2 && plainlyQuoted '\'' (t.text.drop 2) && keptEscape e &&
      wellWritten (escapeChar e) 0 (inner (t.text.drop 2))
def keptOptStr : Option CStr → Bool
  | none => true
  | some s => keptStr s
def keptOverflow : Option COverflow → Bool
  | some (.truncate s _) => keptOptStr s
  | _ => true

def isSign (c : Char) : Bool := c == '+' || c == '-'
/-- At most one sign at the start. -/
def singleSign : Str → Bool
  | a :: b :: _ => !(isSign a && isSign b)
  | _ => true

/-- A decimal literal that can be negated exactly. -/
def keptNumber (minus : Bool) (t : Tok) : Bool :=
  !minus || t.kind != .dec || match decOfPlain t.text with
    | some d => d.coeff != 0 && decide ((natStr d.coeff).length ≤ 28)
    | none => true

def keptCall (name : List Tok) (quant : Option Tok) (args : Nat) : Bool :=
  name.all keptName && !quantMeaning false quant && ((calledName name != c% "APPROX_PERCENTILE" || args != 3) && !ownSyntax.contains (calledName name))

/-- Columns, with or without parentheses. -/
def columnLike : CE → Bool
  | .col _ => true
  | .deref _ _ => true
  | .paren e => columnLike e
  | _ => false

/-- What may stand before a dot: a column that has a name, as the name of a table, or a value that is not a
column. -/
def keptBase : CE → Bool
  | .col t => !(nameOf t).isEmpty
  | e => !columnLike e

def keptTable (name : List Tok) : Bool := name.all keptName && decide (name.length ≤ 3)

def keptLimit : CLimit → Bool
  | .fetch .. => false
  | _ => true

def noFrame : CFrame → Bool
  | .none => true
  | _ => false

def windowNames : List CWinDef → List Str
  | [] => []
  | .mk n _ :: ws => nameOf n :: windowNames ws

end Spec
open Spec

mutual
def CE.kept : CE → Bool
  | .or_ l r => l.kept && r.kept
  | .and_ l r => l.kept && r.kept
  | .not_ v => v.kept
  | .cmp _ l r => l.kept && r.kept
  | .between _ v l u => v.kept && (l.kept && u.kept)
  | .inList _ v es => v.kept && CE.kepts es
  | .inSub _ v q => v.kept && q.kept
  | .like _ v p esc => v.kept && (p.kept && CE.keptOpt esc)
  | .isNull _ v => v.kept
  | .distinct _ l r => l.kept && r.kept
  | .quantified _ _ _ _ => true
  | .concat l r => l.kept && r.kept
  | .arith _ l r => l.kept && r.kept
  | .sign _ v => v.kept
  | .atZone _ _ => false
  | .null => true
  | .interval _ s _ _ => keptStr s && singleSign (stringOf s)
  | .typeCtor n s => keptName n && keptStr s
  | .doublePrecision _ => true
  | .num m t => keptNumber m t
  | .bool _ => true
  | .str s => keptStr s
  | .binary _ => false
  | .param => true
  | .row es => CE.kepts es
  | .rowKw es => CE.kepts es
  | .listagg q e sep ov ob => !quantMeaning false q && (e.kept && (keptOptStr sep && (keptOverflow ov && CSort.kepts ob)))
  | .callStar name label fl w => keptCall name none 1 && (keptPrefix label && (CE.keptOpt fl && CWin.keptOpt w))
  | .call name q args ob fl _ w => keptCall name q args.length && (CE.kepts args && (CSort.kepts ob && (CE.keptOpt fl && CWin.keptOpt w)))
  | .lam _ ids b => ids.all keptName && b.kept
  | .sub q => q.kept
  | .case v ws e => CE.keptOpt v && (CWhen.kepts ws && CE.keptOpt e)
  | .cast _ e _ _ => e.kept
  | .array es => CE.kepts es
  | .subscript v i => v.kept && i.kept
  | .col t => keptName t
  | .deref v n => keptBase v && (v.kept && keptName n)
  | .dateTime _ _ => true
  | .session _ => true
  | .normalize v _ => v.kept
  | .paren e => e.kept
  | .exists_ _ => false
  | .position _ _ => false
  | .substring _ _ _ => false
  | .extract _ _ => false
  | .trimFrom _ _ _ => false
  | .trim _ _ => false
  | .grouping _ => false
def CE.keptOpt : Option CE → Bool
  | none => true
  | some e => e.kept
def CE.kepts : List CE → Bool
  | [] => true
  | e :: es => e.kept && CE.kepts es
def CWhen.kepts : List CWhen → Bool
  | [] => true
  | .mk c v :: ws => c.kept && (v.kept && CWhen.kepts ws)
def CSort.kepts : List CSort → Bool
  | [] => true
  | .mk e _ _ :: ss => e.kept && CSort.kepts ss
def CBound.kept : CBound → Bool
  | .unbounded _ => true
  | .current => true
  | .bounded e _ => e.kept
def CFrame.kept : CFrame → Bool
  | .none => true
  | .from_ _ b => b.kept
  | .between _ a b => a.kept && b.kept
def CWin.kept : CWin → Bool
  | .ref _ => false
  | .spec p ps ob fr => keptPrefix p && ((p.isNone || !noFrame fr) && (CE.kepts ps && (CSort.kepts ob && fr.kept)))
def CWin.keptOpt : Option CWin → Bool
  | none => true
  | some w => w.kept
def CSet.kept : CSet → Bool
  | .paren es => CE.kepts es
  | .expr e => e.kept
def CSet.kepts : List CSet → Bool
  | [] => true
  | s :: ss => s.kept && CSet.kepts ss
def CGrp.kept : CGrp → Bool
  | .single s => s.kept
  | .rollup es => CE.kepts es
  | .cube es => CE.kepts es
  | .sets ss => CSet.kepts ss
def CGrp.kepts : List CGrp → Bool
  | [] => true
  | s :: ss => s.kept && CGrp.kepts ss
def CItem.kept : CItem → Bool
  | .expr e _ a => e.kept && keptOptName a
  | .allOf e cols => keptBase e && (e.kept && cols.all keptName)
  | .all => true
def CItem.kepts : List CItem → Bool
  | [] => true
  | s :: ss => s.kept && CItem.kepts ss
def CWinDef.kepts : List CWinDef → Bool
  | [] => true
  | .mk n w :: ws => keptName n && (w.kept && CWinDef.kepts ws)
def CQ.kept : CQ → Bool
  | .mk _ w b => CNamed.kepts w && b.kept
def CNamed.kepts : List CNamed → Bool
  | [] => true
  | .mk n cols q :: ns => keptName n && (cols.all keptName && (q.kept && CNamed.kepts ns))
def CQN.kept : CQN → Bool
  | .mk t ob _ lim => t.kept && (CSort.kepts ob && keptLimit lim)
def CQT.kept : CQT → Bool
  | .set _ _ l r => l.kept && r.kept
  | .spec _ items fr wh _ gs hv wins => CItem.kepts items && (CR.kepts fr && (CE.keptOpt wh && (CGrp.kepts gs && (CE.keptOpt hv && (CWinDef.kepts wins && decide (windowNames wins).Nodup)))))
  | .table name => keptTable name
  | .values es => CE.kepts es
  | .sub _ => false
def CR.kept : CR → Bool
  | .cross l r => l.kept && r.kept
  | .natural l _ r => l.kept && r.kept
  | .join l _ r c => l.kept && (r.kept && c.kept)
  | .sample r _ e => r.kept && e.kept
  | .alias r _ n cols => r.kept && (keptName n && cols.all keptName)
  | .table name => keptTable name
  | .sub q => q.kept
  | .unnest es _ => CE.kepts es
  | .lateral q => q.kept
  | .paren r => r.kept
def CR.kepts : List CR → Bool
  | [] => true
  | s :: ss => s.kept && CR.kepts ss
def CCrit.kept : CCrit → Bool
  | .on e => e.kept
  | .using cols => cols.all keptName
end

end Treeno
