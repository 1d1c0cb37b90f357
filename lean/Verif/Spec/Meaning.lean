import Verif.Spec.Reread
/-!
# What a tree means

A `Model` says what values, truth values, comparisons and numbers are; every other construct of SQL is an
arbitrary function of the meanings of its parts (`op`).  A meaning is a function of the environment (the
row, the bound variables, the visible relations ...), so `op` may evaluate a part in another environment,
as lambda expressions and subqueries do.  Logic is three-valued: `none` is the truth value *unknown*.
-/
set_option autoImplicit false
namespace Treeno
namespace Spec

/-! ## Three-valued logic -/

def not3 : Option Bool → Option Bool
  | some b => some (!b)
  | none => none

def and3 : Option Bool → Option Bool → Option Bool
  | some false, _ => some false
  | _, some false => some false
  | some true, b => b
  | a, some true => a
  | none, none => none

def or3 : Option Bool → Option Bool → Option Bool
  | some true, _ => some true
  | _, some true => some true
  | some false, b => b
  | a, some false => a
  | none, none => none

/-- The constructs that are not logic, comparison or arithmetic on signs, with what they carry besides
their parts. -/
inductive Label
  | nothing | list | text (s : Str) | float (s : Str) | badNumber (minus : Bool) (s : Str)
  | column (table : Option Str) (name : Str) | part (name : Str) | alias (name : Str)
  | star (table : Option Str) | starOf | starAliases (names : List Str)
  | lambda (inputs : List Str) | plus | arith (op : BinOp)
  | array | typed (type : Str) (text : Str) | row | interval (neg : Bool) (text from_ : Str) (to : Option Str)
  | cast (try_ : Bool) (type : Ty) | badCast (try_ : Bool) | subscript | case | branch
  | call (name : Str) (ignoreNulls : Bool) | listagg (sep : Str) (overflow : Option (Str × Bool))
  | current (name : Str) (precision : Int) | session (name : Str) | normalize (form : Option Str)
  | order (desc nullsFirst : Bool)
  | bounded (t : BoundType) | unbounded (t : BoundType) | currentRow
  | window (parent : Option Str) (frame : FrameType) | windowRef (name : Str) | inheritedFrame (parent : Str)
  | group | groups | cube | rollup | groupBy (distinct : Bool)
  | select (distinct : Bool) | named (name : Str)
  | set (kind : SetKind) (distinct : Bool) | table (catalog schema : Option Str) (name : Str) | values
  | ordered | offset (n : Int) | limit (n : Int) | fetch (first rows : Str) (n : Option Str) (ties : Bool)
  | with_ (recursive : Bool) | common (name : Str) (cols : List Str)
  | relAlias (name : Str) (cols : List Str) | join (t : JoinType) (natural : Bool) | using (cols : List Str) | on
  | unnest (ordinality : Bool) | lateral | sample (t : SampleType)
  | other (words : List Str)

structure Model where
  Env : Type
  V : Type
  /-- The truth value of a value; NULL is unknown. -/
  truth : V → Option Bool
  ofTruth : Option Bool → V
  truth_ofTruth : ∀ b, truth (ofTruth b) = b
  isNull : V → Bool
  equal : V → V → Option Bool
  greater : V → V → Option Bool
  atLeast : V → V → Option Bool
  less : V → V → Option Bool
  atMost : V → V → Option Bool
  distinct : V → V → Bool
  like : V → V → Option V → Option Bool
  /-- Is the value among the rows of a query? -/
  among : V → (Env → V) → Env → Option Bool
  int : Int → V
  dec : Dec → V
  negate : V → V
  negate_int : ∀ n, negate (int n) = int (-n)
  negate_dec : ∀ d : Dec, negate (dec d) = dec { d with neg := !d.neg }
  /-- Everything else. -/
  op : Label → List (Env → V) → Env → V

namespace Model
variable (M : Model)

/-- A meaning. -/
abbrev D : Type := M.Env → M.V

variable {M}

def const (l : Label) : M.D := M.op l []
def list (ds : List M.D) : M.D := M.op .list ds
/-- An optional part. -/
def opt : Option M.D → M.D
  | none => const .nothing
  | some d => d

def bool3 (f : M.Env → Option Bool) : M.D := fun env => M.ofTruth (f env)
def not (d : M.D) : M.D := bool3 fun env => not3 (M.truth (d env))
def and (a b : M.D) : M.D := bool3 fun env => and3 (M.truth (a env)) (M.truth (b env))
def or (a b : M.D) : M.D := bool3 fun env => or3 (M.truth (a env)) (M.truth (b env))
def null : M.D := bool3 fun _ => none
def boolean (b : Bool) : M.D := bool3 fun _ => some b
def neg (d : M.D) : M.D := fun env => M.negate (d env)
def integer (n : Int) : M.D := fun _ => M.int n
def decimal (d : Dec) : M.D := fun _ => M.dec d

/-- A binary operator. -/
def binary : BinOp → M.D → M.D → M.D
  | .and, a, b => and a b
  | .or, a, b => or a b
  | .eq, a, b => bool3 fun env => M.equal (a env) (b env)
  | .ne, a, b => bool3 fun env => not3 (M.equal (a env) (b env))
  | .gt, a, b => bool3 fun env => M.greater (a env) (b env)
  | .ge, a, b => bool3 fun env => M.atLeast (a env) (b env)
  | .lt, a, b => bool3 fun env => M.less (a env) (b env)
  | .le, a, b => bool3 fun env => M.atMost (a env) (b env)
  | .distinct, a, b => bool3 fun env => some (M.distinct (a env) (b env))
  | op, a, b => M.op (.arith op) [a, b]

def isNullD (v : M.D) : M.D := bool3 fun env => some (M.isNull (v env))
def betweenD (v l u : M.D) : M.D := bool3 fun env => and3 (M.atLeast (v env) (l env)) (M.atMost (v env) (u env))
/-- IN with a list: equal to the first, or to the second, or ... -/
def anyEqual (v : M.V) : List M.D → M.Env → Option Bool
  | [], _ => some false
  | d :: ds, env => or3 (M.equal v (d env)) (anyEqual v ds env)
def inListD (v : M.D) (ds : List M.D) : M.D := bool3 fun env => anyEqual (v env) ds env
def inRowsD (v q : M.D) : M.D := bool3 fun env => M.among (v env) q env
def likeD (v p : M.D) (e : Option M.D) : M.D := bool3 fun env => M.like (v env) (p env) (e.map (· env))

/-- What may follow a query; nothing changes when it is absent. -/
def ordered (ob : List M.D) (q : M.D) : M.D := if ob.isEmpty then q else M.op .ordered (q :: ob)
def offset (n : Option Int) (q : M.D) : M.D :=
  match n with
  | some n => if n = 0 then q else M.op (.offset n) [q]
  | none => q
def limited (n : Option Int) (q : M.D) : M.D :=
  match n with
  | some n => M.op (.limit n) [q]
  | none => q
def withs (recursive : Bool) (ws : List M.D) (q : M.D) : M.D := if ws.isEmpty then q else M.op (.with_ recursive) (q :: ws)

end Model

def formName : NormalForm → Str
  | .nfd => c% "NFD"
  | .nfc => c% "NFC"
  | .nfkd => c% "NFKD"
  | .nfkc => c% "NFKC"

/-- The sign and the rest of the text of an interval, with another sign in front of it. -/
def signedText (minus : Bool) : Str → Bool × Str
  | '-' :: s => (!minus, s)
  | '+' :: s => (minus, s)
  | s => (minus, s)

def litMeaning {M : Model} : Option Scalar → M.D
  | none => Model.null
  | some (.bool b) => Model.boolean b
  | some (.int n) => Model.integer n
  | some (.float s) => Model.const (.float s)
  | some (.dec d) => Model.decimal d
  | some (.str s) => Model.const (.text s)

def signMeaning {M : Model} : UnOp → M.D → M.D
  | .neg, d => Model.neg d
  | .pos, d => M.op .plus [d]

def tableMeaning {M : Model} (t : TableRef) : M.D := Model.const (.table t.catalog t.schema t.name)

def intervalMeaning {M : Model} (minus : Bool) (s f : Str) (t : Option Str) : M.D :=
  Model.const (.interval (signedText minus s).1 (signedText minus s).2 f t)

end Spec
open Spec

mutual
/-- Columns and stars with an empty table name have none, and variables are columns: what they stand for is a
matter of the environment.  Types of columns are not part of the meaning. -/
def Expr.mean (M : Model) : Expr → M.D
  | .lit v _ => litMeaning v
  | .field n t _ => Model.const (.column (truthy t) n)
  | .fieldOf n b _ => M.op (.part n) [b.mean M]
  | .alias v n => M.op (.alias n) [v.mean M]
  | .star t _ => Model.const (.star (truthy t))
  | .starOf b _ => M.op .starOf [b.mean M]
  | .aliasedStar s as => M.op (.starAliases as) [s.mean M]
  | .var n => Model.const (.column none n)
  | .lam ins b => M.op (.lambda ins) [b.mean M]
  | .un op v => signMeaning op (v.mean M)
  | .bin op l r => Model.binary op (l.mean M) (r.mean M)
  | .not v => Model.not (v.mean M)
  | .isNull v => Model.isNullD (v.mean M)
  | .between v l u => Model.betweenD (v.mean M) (l.mean M) (u.mean M)
  | .array vs => M.op .array (Expr.means M vs)
  | .inQuery v q => Model.inRowsD (v.mean M) (q.mean M)
  | .inList v es => Model.inListD (v.mean M) (Expr.means M es)
  | .like v p e => Model.likeD (v.mean M) (p.mean M) (Expr.meanOpt M e)
  | .typeCtor v t => Model.const (.typed t v)
  | .row vs => M.op .row (Expr.means M vs)
  | .interval v f t => intervalMeaning false v f t
  | .cast tr e t => M.op (.cast tr t) [e.mean M]
  | .subscript v i => M.op .subscript [v.mean M, i.mean M]
  | .case v bs e => M.op .case [Model.opt (Expr.meanOpt M v), Model.list (Expr.meanWhens M bs), Model.opt (Expr.meanOpt M e)]
  | .func f as => M.op (.call f.name false) [Model.list (Expr.means M as), Model.list [], Model.opt none, Model.opt none]
  | .agg f as ob fl w ign => M.op (.call f.name ign) [Model.list (Expr.means M as), Model.list (Ord.means M ob), Model.opt (Expr.meanOpt M fl), Model.opt (Win.meanOpt M w)]
  | .listagg v sep ov ob => M.op (.listagg sep ov) (v.mean M :: Ord.means M ob)
  | .curTime f p => Model.const (.current f.name p)
  | .session f => Model.const (.session f.name)
  | .normalize v fo => M.op (.normalize (fo.map formName)) [v.mean M]
  | .query q => q.mean M
def Expr.meanOpt (M : Model) : Option Expr → Option M.D
  | none => none
  | some e => some (e.mean M)
def Win.meanOpt (M : Model) : Option Win → Option M.D
  | none => none
  | some w => some (w.mean M)
def GroupBy.meanOpt (M : Model) : Option GroupBy → Option M.D
  | none => none
  | some g => some (g.mean M)
def Rel.meanOpt (M : Model) : Option Rel → Option M.D
  | none => none
  | some r => some (r.mean M)
def Crit.meanOpt (M : Model) : Option Crit → Option M.D
  | none => none
  | some c => some (c.mean M)
def Expr.means (M : Model) : List Expr → List M.D
  | [] => []
  | e :: es => e.mean M :: Expr.means M es
def Expr.meanWhens (M : Model) : List (Expr × Expr) → List M.D
  | [] => []
  | (c, v) :: bs => M.op .branch [c.mean M, v.mean M] :: Expr.meanWhens M bs
def Expr.meanLists (M : Model) : List (List Expr) → List M.D
  | [] => []
  | vs :: gs => M.op .group (Expr.means M vs) :: Expr.meanLists M gs
def Ord.mean (M : Model) : Ord → M.D
  | .mk v d nf => M.op (.order d nf) [v.mean M]
def Ord.means (M : Model) : List Ord → List M.D
  | [] => []
  | x :: xs => x.mean M :: Ord.means M xs
def Bound.mean (M : Model) : Bound → M.D
  | .bounded t e => M.op (.bounded t) [e.mean M]
  | .unbounded t => Model.const (.unbounded t)
  | .current => Model.const .currentRow
def Win.mean (M : Model) : Win → M.D
  | .mk p ob ps f st en => M.op (.window (truthy p) f) [Model.list (Ord.means M ob), Model.list (Expr.means M ps), st.mean M, en.mean M]
def Grp.mean (M : Model) : Grp → M.D
  | .set vs => M.op .group (Expr.means M vs)
  | .sets gs => M.op .groups (Expr.meanLists M gs)
  | .cube vs => M.op .cube (Expr.means M vs)
  | .rollup vs => M.op .rollup (Expr.means M vs)
def Grp.means (M : Model) : List Grp → List M.D
  | [] => []
  | g :: gs => g.mean M :: Grp.means M gs
def GroupBy.mean (M : Model) : GroupBy → M.D
  | .mk gs d => M.op (.groupBy d) (Grp.means M gs)
def Query.mean (M : Model) : Query → M.D
  | .mk b off lim ob w => Model.withs false (Named.meanWiths M w) (Model.limited lim (Model.offset off (Model.ordered (Ord.means M ob) (b.mean M))))
def QBody.mean (M : Model) : QBody → M.D
  | .select items fr wh gb hv d wins => M.op (.select d) [Model.list (Expr.means M items), Model.opt (Rel.meanOpt M fr), Model.opt (Expr.meanOpt M wh), Model.opt (GroupBy.meanOpt M gb), Model.opt (Expr.meanOpt M hv), Model.list (Win.meanNamed M wins)]
  | .set k l r d => M.op (.set k d) [l.mean M, r.mean M]
  | .table t => tableMeaning t
  | .values es => M.op .values (Expr.means M es)
def Win.meanNamed (M : Model) : List (Str × Win) → List M.D
  | [] => []
  | (n, w) :: ws => M.op (.named n) [w.mean M] :: Win.meanNamed M ws
def Named.mean (M : Model) : Named → M.D
  | .mk r a cols => M.op (.relAlias a cols) [r.mean M]
def Named.meanWith (M : Model) : Named → M.D
  | .mk r a cols => M.op (.common a cols) [r.mean M]
def Named.meanWiths (M : Model) : List Named → List M.D
  | [] => []
  | n :: ns => n.meanWith M :: Named.meanWiths M ns
def Rel.mean (M : Model) : Rel → M.D
  | .table t => tableMeaning t
  | .query q => q.mean M
  | .aliased n => n.mean M
  | .join l r t nat cr => M.op (.join t nat) [l.mean M, r.mean M, Model.opt (Crit.meanOpt M cr)]
  | .unnest as ord => M.op (.unnest ord) (Expr.means M as)
  | .lateral q => M.op .lateral [q.mean M]
  | .sample r t p => M.op (.sample t) [r.mean M, p.mean M]
def Crit.mean (M : Model) : Crit → M.D
  | .using cols => Model.const (.using cols)
  | .on e => M.op .on [e.mean M]
end

end Treeno
