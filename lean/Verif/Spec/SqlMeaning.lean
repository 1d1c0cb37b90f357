import Verif.Spec.Meaning
import Verif.Convert
import Verif.Spec.UnicodeSpec
import Verif.Spec.Calls
/-!
# What SQL text means

The meaning of a parse tree, following the SQL standard and the Trino documentation, independently of the
visitor that builds syntax trees.  The negated predicates are written out: `x NOT IN (a, b)` is `x <> a AND x
<> b`, `x NOT BETWEEN a AND b` is `NOT x >= a OR NOT x <= b`.
-/
set_option autoImplicit false
namespace Treeno
namespace Spec

/-- Two quotes stand for one. -/
def undouble (q : Char) : Str → Str
  | a :: b :: s => if a = q ∧ b = q then q :: undouble q s else a :: undouble q (b :: s)
  | s => s

/-- The text between the first and the last character. -/
def inner (s : Str) : Str := s.tail.dropLast

/-- The name that a token stands for. -/
def nameOf (t : Tok) : Str :=
  match t.kind with
  | .quoted => undouble '"' (inner t.text)
  | .backquoted => undouble '`' (inner t.text)
  | _ => t.text

/-- The escape character of a string literal with Unicode escapes. -/
def escapeChar : Option Tok → Char
  | none => '\\'
  | some t => (undouble '\'' (inner t.text)).headD '\\'

/-- The string that a token stands for. -/
def stringOf : CStr → Str
  | .basic t => undouble '\'' (inner t.text)
  | .unicode t e => decoded (escapeChar e) 0 (undouble '\'' (inner (t.text.drop 2)))

/-- The number that a token stands for.  A double is its Python text, which C71 describes. -/
def numberOf {M : Model} (minus : Bool) (t : Tok) : M.D :=
  match t.kind, decOfPlain t.text with
  | .int, _ => Model.integer (if minus then -(digitsVal t.text : Int) else digitsVal t.text)
  | .dec, some d => Model.decimal (if minus then { d with neg := !d.neg } else d)
  | .dbl, _ => Model.const (.float (floatStr minus t.text))
  | _, _ => Model.const (.badNumber minus t.text)

def compared {M : Model} (t : Tok) (a b : M.D) : M.D :=
  if t.text = c% "=" then Model.binary .eq a b
  else if t.text = c% "<>" ∨ t.text = c% "!=" then Model.not (Model.binary .eq a b)
  else if t.text = c% ">" then Model.binary .gt a b
  else if t.text = c% ">=" then Model.binary .ge a b
  else if t.text = c% "<" then Model.binary .lt a b
  else if t.text = c% "<=" then Model.binary .le a b
  else M.op (.other [t.text]) [a, b]

def arithmetic {M : Model} (t : Tok) (a b : M.D) : M.D :=
  if t.text = c% "+" then Model.binary .add a b
  else if t.text = c% "-" then Model.binary .sub a b
  else if t.text = c% "*" then Model.binary .mul a b
  else if t.text = c% "/" then Model.binary .div a b
  else if t.text = c% "%" then Model.binary .mod a b
  else M.op (.other [t.text]) [a, b]

def signed {M : Model} (t : Tok) (a : M.D) : M.D :=
  if t.text = c% "-" then Model.neg a
  else M.op .plus [a]

/-! The predicates with NOT. -/

def notBetweenD {M : Model} (v l u : M.D) : M.D :=
  Model.bool3 fun env => or3 (not3 (M.atLeast (v env) (l env))) (not3 (M.atMost (v env) (u env)))
def allDiffer {M : Model} (v : M.V) : List M.D → M.Env → Option Bool
  | [], _ => some true
  | d :: ds, env => and3 (not3 (M.equal v (d env))) (allDiffer v ds env)
def notInListD {M : Model} (v : M.D) (ds : List M.D) : M.D := Model.bool3 fun env => allDiffer (v env) ds env
def notInRowsD {M : Model} (v q : M.D) : M.D := Model.bool3 fun env => not3 (M.among (v env) q env)
def notLikeD {M : Model} (v p : M.D) (e : Option M.D) : M.D :=
  Model.bool3 fun env => not3 (M.like (v env) (p env) (e.map (· env)))
def isNotNullD {M : Model} (v : M.D) : M.D := Model.bool3 fun env => some (!M.isNull (v env))
def notDistinctD {M : Model} (a b : M.D) : M.D := Model.bool3 fun env => some (!M.distinct (a env) (b env))

/-- A dotted name is a column of a table; any other value before the dot is a row whose part is taken. -/
def derefMeaning {M : Model} (v : CE) (d : M.D) (n : Tok) : M.D :=
  match v with
  | .col t => Model.const (.column (some (nameOf t)) (nameOf n))
  | _ => M.op (.part (nameOf n)) [d]

/-- `t.*` is all columns of a table; any other value before the dot is a row. -/
def allOfMeaning {M : Model} (v : CE) (d : M.D) (cols : List Tok) : M.D :=
  let s := match v with
    | .col t => Model.const (.star (some (nameOf t)))
    | _ => M.op .starOf [d]
  if cols.isEmpty then s else M.op (.starAliases (cols.map nameOf)) [s]

def overflowMeaning : Option COverflow → Option (Str × Bool)
  | some (.truncate s w) => some ((s.map stringOf).getD (c% "..."), w)
  | _ => none

/-- The name of a function: case does not matter. -/
def calledName : List Tok → Str
  | [t] => upper (nameOf t)
  | ts => join (c% ".") (ts.map nameOf)

def castMeaning {M : Model} (tr : Bool) (ty : CTy) (d : M.D) : M.D :=
  match ty.conv with
  | .ok t => M.op (.cast tr t) [d]
  | .error _ => M.op (.badCast tr) [d]

def currentMeaning {M : Model} (t : Tok) (p : Option Tok) : M.D :=
  if upper t.text = c% "CURRENT_DATE" then Model.const (.session (c% "CURRENT_DATE"))
  else Model.const (.current (upper t.text) ((p.map fun n => (digitsVal n.text : Int)).getD 3))

def sideMeaning (t : Tok) : BoundType := if upper t.text = c% "PRECEDING" then .preceding else .following
def frameMeaning (t : Tok) : FrameType :=
  if upper t.text = c% "ROWS" then .rows else if upper t.text = c% "GROUPS" then .groups else .range
def kindMeaning (t : Tok) : SetKind :=
  if upper t.text = c% "INTERSECT" then .intersect else if upper t.text = c% "EXCEPT" then .except else .union
def sampleMeaning (t : Tok) : SampleType := if upper t.text = c% "BERNOULLI" then .bernoulli else .system
def quantMeaning (dflt : Bool) : Option Tok → Bool
  | none => dflt
  | some t => decide (upper t.text = c% "DISTINCT")
/-- The grammar has ASC and DESC only, FIRST and LAST only. -/
def descMeaning : Option Tok → Bool
  | none => false
  | some t => decide (upper t.text ≠ c% "ASC")
def firstMeaning : Option Tok → Bool
  | none => false
  | some t => decide (upper t.text ≠ c% "LAST")

def joinMeaning : CJoin → JoinType
  | .inner _ => .inner
  | .left _ => .left
  | .right _ => .right
  | .full _ => .outer

/-- A table name of one to three parts. -/
def tableName {M : Model} : List Tok → M.D
  | [n] => Model.const (.table none none (nameOf n))
  | [s, n] => Model.const (.table none (some (nameOf s)) (nameOf n))
  | [c, s, n] => Model.const (.table (some (nameOf c)) (some (nameOf s)) (nameOf n))
  | ts => Model.const (.other (ts.map nameOf))

/-- LIMIT ALL is no limit. -/
def limitMeaning {M : Model} (l : CLimit) (q : M.D) : M.D :=
  match l with
  | .none => q
  | .limit t => if t.kind = .int then Model.limited (some (digitsVal t.text)) q else q
  | .fetch f n r ties => M.op (.fetch f.text r.text (n.map Tok.text) ties) [q]

/-- The default frame of a window. -/
def defaultFrame {M : Model} : List M.D := [Model.const (.unbounded .preceding), Model.const .currentRow]

/-- A window without a frame has the default one, unless it has a parent: then it has the frame of the
parent. -/
def windowMeaning {M : Model} (parent : Option Tok) (ps ob : List M.D) (f : Option (FrameType × List M.D)) : M.D :=
  match f, parent with
  | some f, p => M.op (.window (p.map nameOf) f.1) ([Model.list ob, Model.list ps] ++ f.2)
  | none, none => M.op (.window none .range) ([Model.list ob, Model.list ps] ++ defaultFrame)
  | none, some p => M.op (.inheritedFrame (nameOf p)) [Model.list ob, Model.list ps]

def aliasMeaning {M : Model} (a : Option Tok) (d : M.D) : M.D :=
  match a with
  | none => d
  | some t => M.op (.alias (nameOf t)) [d]

/-- At most one relation is in the FROM clause of the syntax trees. -/
def fromMeaning {M : Model} : List M.D → M.D
  | [] => Model.const .nothing
  | [d] => d
  | ds => M.op (.join .cross false) ds

def groupByMeaning {M : Model} (q : Option Tok) (gs : List M.D) : M.D :=
  if gs.isEmpty then Model.const .nothing else M.op (.groupBy (quantMeaning false q)) gs

end Spec
open Spec

mutual
def CE.mean (M : Model) : CE → M.D
  | .or_ l r => Model.or (l.mean M) (r.mean M)
  | .and_ l r => Model.and (l.mean M) (r.mean M)
  | .not_ v => Model.not (v.mean M)
  | .cmp op l r => compared op (l.mean M) (r.mean M)
  | .between neg v l u => if neg then notBetweenD (v.mean M) (l.mean M) (u.mean M) else Model.betweenD (v.mean M) (l.mean M) (u.mean M)
  | .inList neg v es => if neg then notInListD (v.mean M) (CE.means M es) else Model.inListD (v.mean M) (CE.means M es)
  | .inSub neg v q => if neg then notInRowsD (v.mean M) (q.mean M) else Model.inRowsD (v.mean M) (q.mean M)
  | .like neg v p esc => if neg then notLikeD (v.mean M) (p.mean M) (CE.meanOpt M esc) else Model.likeD (v.mean M) (p.mean M) (CE.meanOpt M esc)
  | .isNull neg v => if neg then isNotNullD (v.mean M) else Model.isNullD (v.mean M)
  | .distinct neg l r => if neg then notDistinctD (l.mean M) (r.mean M) else Model.binary .distinct (l.mean M) (r.mean M)
  | .quantified op k l q => M.op (.other [op.text, upper k.text]) [l.mean M, q.mean M]
  | .concat l r => M.op (.call (c% "CONCAT") false) [Model.list [l.mean M, r.mean M], Model.list [], Model.opt none, Model.opt none]
  | .arith op l r => arithmetic op (l.mean M) (r.mean M)
  | .sign op v => signed op (v.mean M)
  | .atZone v z => M.op (.other [c% "AT TIME ZONE"]) [v.mean M, z.mean M]
  | .null => Model.null
  | .interval sg s f t => intervalMeaning (sg.any fun t => t.text == c% "-") (stringOf s) f.text (t.map Tok.text)
  | .typeCtor n s => Model.const (.typed (nameOf n) (stringOf s))
  | .doublePrecision s => Model.const (.typed (c% "DOUBLE PRECISION") (stringOf s))
  | .num m t => numberOf m t
  | .bool t => Model.boolean (upper t.text == c% "TRUE")
  | .str s => Model.const (.text (stringOf s))
  | .binary t => Model.const (.other [t.text])
  | .param => Model.const (.other [c% "?"])
  | .row es => M.op .row (CE.means M es)
  | .rowKw es => M.op .row (CE.means M es)
  | .listagg q e sep ov ob => if quantMeaning false q then M.op (.other [c% "DISTINCT", c% "LISTAGG"]) (Model.const (.listagg ((sep.map stringOf).getD (c% " ")) (overflowMeaning ov)) :: e.mean M :: CSort.means M ob) else M.op (.listagg ((sep.map stringOf).getD (c% " ")) (overflowMeaning ov)) (e.mean M :: CSort.means M ob)
  | .callStar name label fl w => M.op (.call (calledName name) false) [Model.list [Model.const (.star (label.map nameOf))], Model.list [], Model.opt (CE.meanOpt M fl), Model.opt (CWin.meanOpt M w)]
  | .call name q args ob fl ign w => if quantMeaning false q then M.op (.other [c% "DISTINCT", calledName name]) [Model.list (CE.means M args), Model.list (CSort.means M ob), Model.opt (CE.meanOpt M fl), Model.opt (CWin.meanOpt M w)] else M.op (.call (calledName name) (ign == some true)) [Model.list (CE.means M args), Model.list (CSort.means M ob), Model.opt (CE.meanOpt M fl), Model.opt (CWin.meanOpt M w)]
  | .lam _ ids b => M.op (.lambda (ids.map nameOf)) [b.mean M]
  | .sub q => q.mean M
  | .case v ws e => M.op .case [Model.opt (CE.meanOpt M v), Model.list (CWhen.means M ws), Model.opt (CE.meanOpt M e)]
  | .cast tr e ty _ => castMeaning tr ty (e.mean M)
  | .array es => M.op .array (CE.means M es)
  | .subscript v i => M.op .subscript [v.mean M, i.mean M]
  | .col t => Model.const (.column none (nameOf t))
  | .deref v n => derefMeaning v (v.mean M) n
  | .dateTime t p => currentMeaning t p
  | .session t => Model.const (.session (upper t.text))
  | .normalize v f => M.op (.normalize (f.map Tok.text)) [v.mean M]
  | .paren e => e.mean M
  | .exists_ q => M.op (.other [c% "EXISTS"]) [q.mean M]
  | .position l r => M.op (.other [c% "POSITION"]) [l.mean M, r.mean M]
  | .substring v f n => M.op (.other [c% "SUBSTRING"]) [v.mean M, f.mean M, Model.opt (CE.meanOpt M n)]
  | .extract t v => M.op (.other [c% "EXTRACT", nameOf t]) [v.mean M]
  | .trimFrom s c v => M.op (.other [c% "TRIM", ((s.map fun t => upper t.text).getD (c% "BOTH"))]) [v.mean M, Model.opt (CE.meanOpt M c)]
  | .trim v c => M.op (.other [c% "TRIM", c% "BOTH"]) [v.mean M, Model.opt (CE.meanOpt M c)]
  | .grouping ns => M.op (.other [c% "GROUPING"]) (ns.map fun n => Model.const (.other (n.map nameOf)))
def CE.meanOpt (M : Model) : Option CE → Option M.D
  | none => none
  | some e => some (e.mean M)
def CE.means (M : Model) : List CE → List M.D
  | [] => []
  | e :: es => e.mean M :: CE.means M es
def CWhen.means (M : Model) : List CWhen → List M.D
  | [] => []
  | .mk c v :: ws => M.op .branch [c.mean M, v.mean M] :: CWhen.means M ws
def CSort.means (M : Model) : List CSort → List M.D
  | [] => []
  | .mk e o n :: ss => M.op (.order (descMeaning o) (firstMeaning n)) [e.mean M] :: CSort.means M ss
def CBound.mean (M : Model) : CBound → M.D
  | .unbounded t => Model.const (.unbounded (sideMeaning t))
  | .current => Model.const .currentRow
  | .bounded e t => M.op (.bounded (sideMeaning t)) [e.mean M]
def CFrame.mean (M : Model) : CFrame → Option (FrameType × List M.D)
  | .none => none
  | .from_ t b => some (frameMeaning t, [b.mean M, Model.const .currentRow])
  | .between t a b => some (frameMeaning t, [a.mean M, b.mean M])
def CWin.mean (M : Model) : CWin → M.D
  | .ref t => Model.const (.windowRef (nameOf t))
  | .spec p ps ob fr => windowMeaning p (CE.means M ps) (CSort.means M ob) (fr.mean M)
def CWin.meanOpt (M : Model) : Option CWin → Option M.D
  | none => none
  | some w => some (w.mean M)
def CSet.mean (M : Model) : CSet → M.D
  | .paren es => M.op .group (CE.means M es)
  | .expr e => M.op .group [e.mean M]
def CSet.means (M : Model) : List CSet → List M.D
  | [] => []
  | s :: ss => s.mean M :: CSet.means M ss
def CGrp.mean (M : Model) : CGrp → M.D
  | .single s => s.mean M
  | .rollup es => M.op .rollup (CE.means M es)
  | .cube es => M.op .cube (CE.means M es)
  | .sets ss => M.op .groups (CSet.means M ss)
def CGrp.means (M : Model) : List CGrp → List M.D
  | [] => []
  | s :: ss => s.mean M :: CGrp.means M ss
def CItem.mean (M : Model) : CItem → M.D
  | .expr e _ a => aliasMeaning a (e.mean M)
  | .allOf e cols => allOfMeaning e (e.mean M) cols
  | .all => Model.const (.star none)
def CItem.means (M : Model) : List CItem → List M.D
  | [] => []
  | s :: ss => s.mean M :: CItem.means M ss
def CWinDef.means (M : Model) : List CWinDef → List M.D
  | [] => []
  | .mk n w :: ws => M.op (.named (nameOf n)) [w.mean M] :: CWinDef.means M ws
def CQ.mean (M : Model) : CQ → M.D
  | .mk rc w b => Model.withs rc (CNamed.means M w) (b.mean M)
def CNamed.means (M : Model) : List CNamed → List M.D
  | [] => []
  | .mk n cols q :: ns => M.op (.common (nameOf n) (cols.map nameOf)) [q.mean M] :: CNamed.means M ns
def CQN.mean (M : Model) : CQN → M.D
  | .mk t ob off lim => limitMeaning lim (Model.offset (off.map fun p => (digitsVal p.1.text : Int)) (Model.ordered (CSort.means M ob) (t.mean M)))
def CQT.mean (M : Model) : CQT → M.D
  | .set op quant l r => M.op (.set (kindMeaning op) (quantMeaning true quant)) [l.mean M, r.mean M]
  | .spec quant items fr wh gq gs hv wins => M.op (.select (quantMeaning false quant)) [Model.list (CItem.means M items), fromMeaning (CR.means M fr), Model.opt (CE.meanOpt M wh), groupByMeaning gq (CGrp.means M gs), Model.opt (CE.meanOpt M hv), Model.list (CWinDef.means M wins)]
  | .table name => tableName name
  | .values es => M.op .values (CE.means M es)
  | .sub q => q.mean M
def CR.mean (M : Model) : CR → M.D
  | .cross l r => M.op (.join .cross false) [l.mean M, r.mean M, Model.opt none]
  | .natural l t r => M.op (.join (joinMeaning t) true) [l.mean M, r.mean M, Model.opt none]
  | .join l t r c => M.op (.join (joinMeaning t) false) [l.mean M, r.mean M, c.mean M]
  | .sample r t e => M.op (.sample (sampleMeaning t)) [r.mean M, e.mean M]
  | .alias r _ n cols => M.op (.relAlias (nameOf n) (cols.map nameOf)) [r.mean M]
  | .table name => tableName name
  | .sub q => q.mean M
  | .unnest es ord => M.op (.unnest ord) (CE.means M es)
  | .lateral q => M.op .lateral [q.mean M]
  | .paren r => r.mean M
def CR.means (M : Model) : List CR → List M.D
  | [] => []
  | s :: ss => s.mean M :: CR.means M ss
def CCrit.mean (M : Model) : CCrit → M.D
  | .on e => M.op .on [e.mean M]
  | .using cols => Model.const (.using (cols.map nameOf))
end

end Treeno
