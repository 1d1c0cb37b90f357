import Verif.Ast
/-!
# Rebuilding a tree from its children

`resolve_fields` (treeno/datatypes/resolve.py 63-84) and `Lambda.from_generic_expr`
(treeno/expression.py 371-400) are both written as one generic traversal: special nodes are replaced,
every other node is rebuilt by `attr.evolve` from its traversed children (`children`,
treeno/util.py 67-69), lists and dicts element by element.

`lf e = some r` means that the traversal replaces the node `e` by `r`; `tb` says what happens to a
`Table`.  Simplification: the constructors are re-run by `Expr.check` after the traversal, not at every
`attr.evolve`, so only which exception comes first can differ; and `attr.evolve` passes the old
`data_type` on, which the model recomputes (they differ only for a class that leaves `data_type`
untouched for some operand types, e.g. `AtTimezone`, when an operand loses its type).
-/
namespace Treeno

/-- What the traversal does to an expression node; `none`: rebuild it from its children. -/
abbrev Leaf := Expr → Option (Except Err Expr)
/-- What the traversal does to a table. -/
abbrev TabFn := TableRef → Except Err TableRef

mutual
def walkExpr (lf : Leaf) (tb : TabFn) : Expr → Except Err Expr
  | .lit v t => (lf (.lit v t)).getD (.ok (.lit v t))
  | .field n tn t => (lf (.field n tn t)).getD (.ok (.field n tn t))
  | .fieldOf n b t => (lf (.fieldOf n b t)).getD (do
      let b' ← walkExpr lf tb b
      .ok (.fieldOf n b' t))
  | .alias v n => (lf (.alias v n)).getD (do
      let v' ← walkExpr lf tb v
      .ok (.alias v' n))
  | .star tn t => (lf (.star tn t)).getD (.ok (.star tn t))
  | .starOf b t => (lf (.starOf b t)).getD (do
      let b' ← walkExpr lf tb b
      .ok (.starOf b' t))
  | .aliasedStar s as => (lf (.aliasedStar s as)).getD (do
      let s' ← walkExpr lf tb s
      .ok (.aliasedStar s' as))
  | .var n => (lf (.var n)).getD (.ok (.var n))
  | .lam ins b => (lf (.lam ins b)).getD (do
      let b' ← walkExpr lf tb b
      .ok (.lam ins b'))
  | .un op v => (lf (.un op v)).getD (do
      let v' ← walkExpr lf tb v
      .ok (.un op v'))
  | .bin op l r => (lf (.bin op l r)).getD (do
      let l' ← walkExpr lf tb l
      let r' ← walkExpr lf tb r
      .ok (.bin op l' r'))
  | .not v => (lf (.not v)).getD (do
      let v' ← walkExpr lf tb v
      .ok (.not v'))
  | .isNull v => (lf (.isNull v)).getD (do
      let v' ← walkExpr lf tb v
      .ok (.isNull v'))
  | .between v l u => (lf (.between v l u)).getD (do
      let v' ← walkExpr lf tb v
      let l' ← walkExpr lf tb l
      let u' ← walkExpr lf tb u
      .ok (.between v' l' u'))
  | .array vs => (lf (.array vs)).getD (do
      let vs' ← walkExprs lf tb vs
      .ok (.array vs'))
  | .inQuery v q => (lf (.inQuery v q)).getD (do
      let v' ← walkExpr lf tb v
      let q' ← walkQuery lf tb q
      .ok (.inQuery v' q'))
  | .inList v es => (lf (.inList v es)).getD (do
      let v' ← walkExpr lf tb v
      let es' ← walkExprs lf tb es
      .ok (.inList v' es'))
  | .like v p e => (lf (.like v p e)).getD (do
      let v' ← walkExpr lf tb v
      let p' ← walkExpr lf tb p
      let e' ← walkExprOpt lf tb e
      .ok (.like v' p' e'))
  | .typeCtor v t => (lf (.typeCtor v t)).getD (.ok (.typeCtor v t))
  | .row vs => (lf (.row vs)).getD (do
      let vs' ← walkExprs lf tb vs
      .ok (.row vs'))
  | .interval v f t => (lf (.interval v f t)).getD (.ok (.interval v f t))
  | .cast tr e t => (lf (.cast tr e t)).getD (do
      let e' ← walkExpr lf tb e
      .ok (.cast tr e' t))
  | .subscript v i => (lf (.subscript v i)).getD (do
      let v' ← walkExpr lf tb v
      let i' ← walkExpr lf tb i
      .ok (.subscript v' i'))
  | .case v bs e => (lf (.case v bs e)).getD (do
      let v' ← walkExprOpt lf tb v
      let bs' ← walkWhens lf tb bs
      let e' ← walkExprOpt lf tb e
      .ok (.case v' bs' e'))
  | .func f as => (lf (.func f as)).getD (do
      let as' ← walkExprs lf tb as
      .ok (.func f as'))
  | .agg f as ob fl w ign => (lf (.agg f as ob fl w ign)).getD (do
      let as' ← walkExprs lf tb as
      let ob' ← walkOrds lf tb ob
      let fl' ← walkExprOpt lf tb fl
      let w' ← walkWinOpt lf tb w
      .ok (.agg f as' ob' fl' w' ign))
  | .listagg v sep ov ob => (lf (.listagg v sep ov ob)).getD (do
      let v' ← walkExpr lf tb v
      let ob' ← walkOrds lf tb ob
      .ok (.listagg v' sep ov ob'))
  | .curTime f p => (lf (.curTime f p)).getD (.ok (.curTime f p))
  | .session f => (lf (.session f)).getD (.ok (.session f))
  | .normalize v fo => (lf (.normalize v fo)).getD (do
      let v' ← walkExpr lf tb v
      .ok (.normalize v' fo))
  | .query q => (lf (.query q)).getD (do
      let q' ← walkQuery lf tb q
      .ok (.query q'))
def walkOrd (lf : Leaf) (tb : TabFn) : Ord → Except Err Ord
  | .mk v d nf => do
    let v' ← walkExpr lf tb v
    .ok (.mk v' d nf)
def walkBound (lf : Leaf) (tb : TabFn) : Bound → Except Err Bound
  | .bounded t e => do
    let e' ← walkExpr lf tb e
    .ok (.bounded t e')
  | .unbounded t => .ok (.unbounded t)
  | .current => .ok (.current)
def walkWin (lf : Leaf) (tb : TabFn) : Win → Except Err Win
  | .mk p ob ps f st en => do
    let ob' ← walkOrds lf tb ob
    let ps' ← walkExprs lf tb ps
    let st' ← walkBound lf tb st
    let en' ← walkBound lf tb en
    .ok (.mk p ob' ps' f st' en')
def walkGrp (lf : Leaf) (tb : TabFn) : Grp → Except Err Grp
  | .set vs => do
    let vs' ← walkExprs lf tb vs
    .ok (.set vs')
  | .sets gs => do
    let gs' ← walkLists lf tb gs
    .ok (.sets gs')
  | .cube vs => do
    let vs' ← walkExprs lf tb vs
    .ok (.cube vs')
  | .rollup vs => do
    let vs' ← walkExprs lf tb vs
    .ok (.rollup vs')
def walkGroupBy (lf : Leaf) (tb : TabFn) : GroupBy → Except Err GroupBy
  | .mk gs d => do
    let gs' ← walkGrps lf tb gs
    .ok (.mk gs' d)
def walkQuery (lf : Leaf) (tb : TabFn) : Query → Except Err Query
  | .mk b off lim ob w => do
    let b' ← walkQBody lf tb b
    let ob' ← walkOrds lf tb ob
    let w' ← walkNameds lf tb w
    .ok (.mk b' off lim ob' w')
def walkQBody (lf : Leaf) (tb : TabFn) : QBody → Except Err QBody
  | .select items fr wh gb hv d wins => do
    let items' ← walkExprs lf tb items
    let fr' ← walkRelOpt lf tb fr
    let wh' ← walkExprOpt lf tb wh
    let gb' ← walkGroupByOpt lf tb gb
    let hv' ← walkExprOpt lf tb hv
    let wins' ← walkNamedWins lf tb wins
    .ok (.select items' fr' wh' gb' hv' d wins')
  | .set k l r d => do
    let l' ← walkQuery lf tb l
    let r' ← walkQuery lf tb r
    .ok (.set k l' r' d)
  | .table t => do
    let t' ← tb t
    .ok (.table t')
  | .values es => do
    let es' ← walkExprs lf tb es
    .ok (.values es')
def walkNamed (lf : Leaf) (tb : TabFn) : Named → Except Err Named
  | .mk r a cols => do
    let r' ← walkRel lf tb r
    .ok (.mk r' a cols)
def walkRel (lf : Leaf) (tb : TabFn) : Rel → Except Err Rel
  | .table t => do
    let t' ← tb t
    .ok (.table t')
  | .query q => do
    let q' ← walkQuery lf tb q
    .ok (.query q')
  | .aliased n => do
    let n' ← walkNamed lf tb n
    .ok (.aliased n')
  | .join l r t nat cr => do
    let l' ← walkRel lf tb l
    let r' ← walkRel lf tb r
    let cr' ← walkCritOpt lf tb cr
    .ok (.join l' r' t nat cr')
  | .unnest as ord => do
    let as' ← walkExprs lf tb as
    .ok (.unnest as' ord)
  | .lateral q => do
    let q' ← walkQuery lf tb q
    .ok (.lateral q')
  | .sample r t p => do
    let r' ← walkRel lf tb r
    let p' ← walkExpr lf tb p
    .ok (.sample r' t p')
def walkCrit (lf : Leaf) (tb : TabFn) : Crit → Except Err Crit
  | .using cols => .ok (.using cols)
  | .on e => do
    let e' ← walkExpr lf tb e
    .ok (.on e')
def walkExprOpt (lf : Leaf) (tb : TabFn) : Option Expr → Except Err (Option Expr)
  | none => .ok none
  | some x => do
    let x' ← walkExpr lf tb x
    .ok (some x')
def walkExprs (lf : Leaf) (tb : TabFn) : List Expr → Except Err (List Expr)
  | [] => .ok []
  | x :: xs => do
    let x' ← walkExpr lf tb x
    let xs' ← walkExprs lf tb xs
    .ok (x' :: xs')
def walkLists (lf : Leaf) (tb : TabFn) : List (List Expr) → Except Err (List (List Expr))
  | [] => .ok []
  | x :: xs => do
    let x' ← walkExprs lf tb x
    let xs' ← walkLists lf tb xs
    .ok (x' :: xs')
def walkWhens (lf : Leaf) (tb : TabFn) : List (Expr × Expr) → Except Err (List (Expr × Expr))
  | [] => .ok []
  | (c, v) :: xs => do
    let c' ← walkExpr lf tb c
    let v' ← walkExpr lf tb v
    let xs' ← walkWhens lf tb xs
    .ok ((c', v') :: xs')
def walkOrds (lf : Leaf) (tb : TabFn) : List Ord → Except Err (List Ord)
  | [] => .ok []
  | x :: xs => do
    let x' ← walkOrd lf tb x
    let xs' ← walkOrds lf tb xs
    .ok (x' :: xs')
def walkWinOpt (lf : Leaf) (tb : TabFn) : Option Win → Except Err (Option Win)
  | none => .ok none
  | some x => do
    let x' ← walkWin lf tb x
    .ok (some x')
def walkGrps (lf : Leaf) (tb : TabFn) : List Grp → Except Err (List Grp)
  | [] => .ok []
  | x :: xs => do
    let x' ← walkGrp lf tb x
    let xs' ← walkGrps lf tb xs
    .ok (x' :: xs')
def walkGroupByOpt (lf : Leaf) (tb : TabFn) : Option GroupBy → Except Err (Option GroupBy)
  | none => .ok none
  | some x => do
    let x' ← walkGroupBy lf tb x
    .ok (some x')
def walkNamedWins (lf : Leaf) (tb : TabFn) : List (Str × Win) → Except Err (List (Str × Win))
  | [] => .ok []
  | (n, w) :: xs => do
    let w' ← walkWin lf tb w
    let xs' ← walkNamedWins lf tb xs
    .ok ((n, w') :: xs')
def walkNameds (lf : Leaf) (tb : TabFn) : List Named → Except Err (List Named)
  | [] => .ok []
  | x :: xs => do
    let x' ← walkNamed lf tb x
    let xs' ← walkNameds lf tb xs
    .ok (x' :: xs')
def walkRelOpt (lf : Leaf) (tb : TabFn) : Option Rel → Except Err (Option Rel)
  | none => .ok none
  | some x => do
    let x' ← walkRel lf tb x
    .ok (some x')
def walkCritOpt (lf : Leaf) (tb : TabFn) : Option Crit → Except Err (Option Crit)
  | none => .ok none
  | some x => do
    let x' ← walkCrit lf tb x
    .ok (some x')
end

end Treeno
