import Verif.Spec.Tidy
import Verif.Spec.Yield
import Verif.Lemmas.TypeParse
/-!
# The parse tree that a printed text has

`cst e`: where the nodes of `e` end up in a parse tree when `e` is printed.  A proof device for the round
trip; it depends on neither the options nor the parser.
-/
namespace Treeno
open Spec

/-- The token of an unquoted name. -/
def wordOf (w : Str) : Tok := ⟨if isKeyword w then .kw else .ident, w⟩
/-- The token of a quoted name. -/
def nameTok (n : Str) : Tok := ⟨.quoted, quoteIdent n⟩
/-- The token of a string. -/
def strTok (s : Str) : Tok := ⟨.str, quoteLit s⟩

/-- The text of a decimal without its sign. -/
def Dec.absStr (d : Dec) : Str := Dec.str { d with neg := false }

def litCst : Option Scalar → CE
  | none => .null
  | some (.bool b) => .bool (kwT (if b then c% "TRUE" else c% "FALSE"))
  | some (.int n) => .num (decide (n < 0)) ⟨.int, natStr n.natAbs⟩
  | some (.float _) => .param
  | some (.dec d) => .num d.neg ⟨.dec, d.absStr⟩
  | some (.str s) => .str (.basic (strTok s))

def fieldCst (n : Str) : Option Str → CE
  | none => .col (nameTok n)
  | some t => .deref (.col (nameTok t)) (nameTok n)

def wrapC (b : Bool) (c : CE) : CE := if b then .paren c else c

def signCst : UnOp → CE → CE
  | .neg, .num false t => .num true t
  | op, c => .sign (symT op.text) c

def binCst (neg : Bool) : BinOp → CE → CE → CE
  | .add, l, r => .arith (symT (c% "+")) l r
  | .sub, l, r => .arith (symT (c% "-")) l r
  | .mul, l, r => .arith (symT (c% "*")) l r
  | .div, l, r => .arith (symT (c% "/")) l r
  | .mod, l, r => .arith (symT (c% "%")) l r
  | .eq, l, r => .cmp (symT (if neg then c% "<>" else c% "=")) l r
  | .ne, l, r => .cmp (symT (if neg then c% "=" else c% "<>")) l r
  | .gt, l, r => .cmp (symT (c% ">")) l r
  | .ge, l, r => .cmp (symT (c% ">=")) l r
  | .lt, l, r => .cmp (symT (c% "<")) l r
  | .le, l, r => .cmp (symT (c% "<=")) l r
  | .and, l, r => .and_ l r
  | .or, l, r => .or_ l r
  | .distinct, l, r => .distinct neg l r

/-- The label of a star argument. -/
def starArg : List Expr → Option Str
  | [.star t _] => truthy t
  | _ => none

def aggCst (f : Agg) (star : Bool) (label : Option Str) (as : List CE) (ob : List CSort) (fl : Option CE) (w : Option CWin)
    (ign : Bool) : CE :=
  if star then .callStar [wordOf f.name] (label.map wordOf) fl w
  else .call [wordOf f.name] none as ob fl (if ign then some true else none) w

def sepCst (sep : Str) : Option CStr := if sep ≠ c% " " then some (.basic (strTok sep)) else none
def overflowCst (ov : Option (Str × Bool)) : Option COverflow :=
  ov.map fun f => .truncate (some (.basic (strTok f.1))) f.2
def precCst (p : Int) : Option Tok := if p ≠ 3 then some ⟨.int, natStr p.natAbs⟩ else none
def sessCst : SessFn → CE
  | .currentDate => .dateTime (kwT (c% "CURRENT_DATE")) none
  | f => .session (kwT f.name)

def setCst : List CE → CSet
  | [c] => .expr c
  | cs => .paren cs

def starItem : Option Str → CItem
  | none => .all
  | some t => .allOf (.col (wordOf t)) []

/-- A select item. -/
def itemCst (e : Expr) (c : CE) : CItem := match e with
  | .alias _ n => .expr c false (some (nameTok n))
  | .star t _ => starItem (truthy t)
  | _ => .expr c false none

def groupQuant : Option GroupBy → Option Tok
  | some (.mk _ true) => some (kwT (c% "DISTINCT"))
  | _ => none

def distinctTok (d : Bool) : Option Tok := if d then some (kwT (c% "DISTINCT")) else none

def rowsTok : Option Int → Option Tok
  | some n => if n ≠ 0 then some ⟨.int, natStr n.natAbs⟩ else none
  | none => none
def limitCst (l : Option Tok) : CLimit := match l with
  | some t => .limit t
  | none => .none

def TableRef.nameToks (t : TableRef) : List Tok := (([t.catalog, t.schema, some t.name].filterMap id).map nameTok)

def QBody.isSet : QBody → Bool
  | .set _ _ _ _ => true
  | _ => false

def CQ.noWith : CQ → CQN
  | .mk _ _ b => b

def queryCst (set : Bool) (b : CQT) (off lim : Option Tok) (ob : List CSort) (w : List CNamed) : CQ :=
  if set then .mk false [] (.mk b [] none .none)
  else .mk false w (.mk b ob (off.map fun t => (t, none)) (limitCst lim))

def joinTypeCst : JoinType → CJoin
  | .inner => .inner true
  | .left => .left false
  | .right => .right false
  | .outer => .full true
  | .cross => .inner false

def joinCst (t : JoinType) (nat : Bool) (l r : CR) (c : Option CCrit) : CR := match c with
  | some c => .join l (joinTypeCst t) r c
  | none => if nat then .natural l (joinTypeCst t) r else .cross l r

def wrapR (b : Bool) (r : CR) : CR := if b then .paren r else r

mutual
def Expr.cst (neg : Bool) : Expr → CE
  | .lit v _ => litCst v
  | .field n t _ => fieldCst n (truthy t)
  | .fieldOf _ _ _ => .param
  | .alias v _ => v.cst false
  | .star _ _ => .param
  | .starOf _ _ => .param
  | .aliasedStar _ _ => .param
  | .var n => .col (wordOf n)
  | .lam ins b => .lam (decide (ins.length > 1)) (ins.map wordOf) (b.cst false)
  | .un op v => signCst op (wrapC (needsParen (some 8) v.prec true) (v.cst false))
  | .bin op l r => binCst neg op (wrapC (needsParen op.prec l.prec true) (l.cst false)) (wrapC (needsParen op.prec r.prec false) (r.cst false))
  | .not v => if v.negatable then v.cst true else .not_ (wrapC (needsParen (some 2) v.prec true) (v.cst false))
  | .isNull v => .isNull neg (wrapC (needsParen (some 3) v.prec true) (v.cst false))
  | .between v l u => .between neg (wrapC (needsParen (some 3) v.prec true) (v.cst false)) (wrapC (needsParen (some 3) l.prec true) (l.cst false)) (wrapC (needsParen (some 3) u.prec true) (u.cst false))
  | .array vs => .array (Expr.csts vs)
  | .inQuery v q => .inSub neg (wrapC (needsParen (some 3) v.prec true) (v.cst false)) q.cst
  | .inList v es => .inList neg (wrapC (needsParen (some 3) v.prec true) (v.cst false)) (Expr.csts es)
  | .like v p e => .like neg (wrapC (needsParen (some 3) v.prec true) (v.cst false)) (wrapC (needsParen (some 3) p.prec true) (p.cst false)) (Expr.cstOpt e)
  | .typeCtor v t => .typeCtor (wordOf t) (.basic (strTok v))
  | .row vs => .row (Expr.csts vs)
  | .interval _ _ _ => .param
  | .cast tr e t => .cast tr (e.cst false) (tyCst t) (tyToks t)
  | .subscript v i => .subscript (v.cst false) (i.cst false)
  | .case v bs e => .case (Expr.cstOpt v) (Expr.cstWhens bs) (Expr.cstOpt e)
  | .func f as => .call [wordOf f.name] none (Expr.csts as) [] none none none
  | .agg f as ob fl w ign => aggCst f (isStarArg as) (starArg as) (Expr.csts as) (Ord.csts ob) (Expr.cstOpt fl) (Win.cstOpt w) ign
  | .listagg v sep ov ob => .listagg none (v.cst false) (sepCst sep) (overflowCst ov) (Ord.csts ob)
  | .curTime f p => .dateTime (kwT f.name) (precCst p)
  | .session f => sessCst f
  | .normalize _ _ => .param
  | .query _ => .param
def Expr.cstOpt : Option Expr → Option CE
  | none => none
  | some e => some (e.cst false)
def Win.cstOpt : Option Win → Option CWin
  | none => none
  | some w => some w.cst
def Crit.cstOpt : Option Crit → Option CCrit
  | none => none
  | some c => some c.cst
def GroupBy.cstOpt : Option GroupBy → List CGrp
  | none => []
  | some g => g.cst
def Rel.cstOpt : Option Rel → List CR
  | none => []
  | some r => [r.cst]
def Expr.csts : List Expr → List CE
  | [] => []
  | e :: es => e.cst false :: Expr.csts es
def Expr.items : List Expr → List CItem
  | [] => []
  | e :: es => itemCst e (e.cst false) :: Expr.items es
def Expr.cstWhens : List (Expr × Expr) → List CWhen
  | [] => []
  | (c, v) :: bs => .mk (c.cst false) (v.cst false) :: Expr.cstWhens bs
def Ord.cst : Ord → CSort
  | .mk v d nf => .mk (v.cst false) (if d then some (kwT (c% "DESC")) else none) (if nf then some (kwT (c% "FIRST")) else none)
def Ord.csts : List Ord → List CSort
  | [] => []
  | x :: xs => x.cst :: Ord.csts xs
def Bound.cst : Bound → CBound
  | .bounded t e => .bounded (e.cst false) (kwT t.text)
  | .unbounded t => .unbounded (kwT t.text)
  | .current => .current
def Win.cst : Win → CWin
  | .mk p ob ps f st en => .spec ((truthy p).map wordOf) (Expr.csts ps) (Ord.csts ob) (.between (kwT f.text) st.cst en.cst)
def Grp.cst : Grp → CGrp
  | .set vs => .single (setCst (Expr.csts vs))
  | .sets gs => .sets (Expr.cstLists gs)
  | .cube vs => .cube (Expr.csts vs)
  | .rollup vs => .rollup (Expr.csts vs)
def Expr.cstLists : List (List Expr) → List CSet
  | [] => []
  | vs :: gs => setCst (Expr.csts vs) :: Expr.cstLists gs
def Grp.csts : List Grp → List CGrp
  | [] => []
  | g :: gs => g.cst :: Grp.csts gs
def GroupBy.cst : GroupBy → List CGrp
  | .mk gs _ => Grp.csts gs
def Query.cst : Query → CQ
  | .mk body off lim ob w => queryCst body.isSet body.cst (rowsTok off) (rowsTok lim) (Ord.csts ob) (Named.csts w)
def QBody.cst : QBody → CQT
  | .select items fr wh gb hv d wins => .spec (distinctTok d) (Expr.items items) (Rel.cstOpt fr) (Expr.cstOpt wh) (groupQuant gb) (GroupBy.cstOpt gb) (Expr.cstOpt hv) (Win.cstNamed wins)
  | .set k l r d => .set (kwT k.text) (some (kwT (quantText d))) (.sub l.cst.noWith) (.sub r.cst.noWith)
  | .table t => .table t.nameToks
  | .values es => .values (Expr.csts es)
def Win.cstNamed : List (Str × Win) → List CWinDef
  | [] => []
  | (n, w) :: ws => .mk (wordOf n) w.cst :: Win.cstNamed ws
def Named.cst : Named → CR
  | .mk r a cols => .alias r.cst false (nameTok a) (cols.map wordOf)
def Named.cstWith : Named → CNamed
  | .mk r a _ => .mk (nameTok a) [] r.qcst
def Named.csts : List Named → List CNamed
  | [] => []
  | n :: ns => n.cstWith :: Named.csts ns
def Rel.cst : Rel → CR
  | .table t => .table t.nameToks
  | .query q => .sub q.cst
  | .aliased n => n.cst
  | .join l r t nat cr => joinCst t nat l.cst r.cst (Crit.cstOpt cr)
  | .unnest as ord => .unnest (Expr.csts as) ord
  | .lateral q => .lateral q.cst
  | .sample r t p => .sample (wrapR r.isJoin r.cst) (kwT t.text) (p.cst false)
def Rel.qcst : Rel → CQ
  | .table t => .mk false [] (.mk (.table t.nameToks) [] none .none)
  | .query q => q.cst
  | .aliased _ => .mk false [] (.mk (.values []) [] none .none)
  | .join _ _ _ _ _ => .mk false [] (.mk (.values []) [] none .none)
  | .unnest _ _ => .mk false [] (.mk (.values []) [] none .none)
  | .lateral _ => .mk false [] (.mk (.values []) [] none .none)
  | .sample _ _ _ => .mk false [] (.mk (.values []) [] none .none)
def Crit.cst : Crit → CCrit
  | .using cols => .using (cols.map wordOf)
  | .on e => .on (e.cst false)
end

end Treeno
