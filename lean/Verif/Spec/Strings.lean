import Verif.Ast
/-!
# The strings of a tree

`exprAll P e`: every name, string literal and other piece of caller-supplied text stored in the
tree, wherever it stands, satisfies `P`.  (Table columns remembered for resolution are never printed
and left out.)
-/
namespace Treeno.Spec
open Treeno

def optAll (P : Str → Prop) : Option Str → Prop
  | none => True
  | some s => P s

def strsAll (P : Str → Prop) (l : List Str) : Prop := ∀ s ∈ l, P s

def scalarAll (P : Str → Prop) : Option Scalar → Prop
  | some (.str s) => P s
  | some (.float r) => P r
  | _ => True

def tableAll (P : Str → Prop) (t : TableRef) : Prop := P t.name ∧ optAll P t.schema ∧ optAll P t.catalog

def overflowAll (P : Str → Prop) : Option (Str × Bool) → Prop
  | none => True
  | some f => P f.1

mutual
def exprAll (P : Str → Prop) : Expr → Prop
  | .lit v _ => scalarAll P v
  | .field n t _ => P n ∧ optAll P t
  | .fieldOf n b _ => P n ∧ exprAll P b
  | .alias v n => P n ∧ exprAll P v
  | .star t _ => optAll P t
  | .starOf b _ => exprAll P b
  | .aliasedStar s as => exprAll P s ∧ strsAll P as
  | .var n => P n
  | .lam ins b => strsAll P ins ∧ exprAll P b
  | .un _ v => exprAll P v
  | .bin _ l r => exprAll P l ∧ exprAll P r
  | .not v => exprAll P v
  | .isNull v => exprAll P v
  | .between v l u => exprAll P v ∧ exprAll P l ∧ exprAll P u
  | .array vs => exprsAll P vs
  | .inQuery v q => exprAll P v ∧ queryAll P q
  | .inList v es => exprAll P v ∧ exprsAll P es
  | .like v p e => exprAll P v ∧ exprAll P p ∧ exprOptAll P e
  | .typeCtor v t => P v ∧ P t
  | .row vs => exprsAll P vs
  | .interval v f t => P v ∧ P f ∧ optAll P t
  | .cast _ e _ => exprAll P e
  | .subscript v i => exprAll P v ∧ exprAll P i
  | .case v bs e => exprOptAll P v ∧ whensAll P bs ∧ exprOptAll P e
  | .func _ as => exprsAll P as
  | .agg _ as ob fl w _ => exprsAll P as ∧ ordsAll P ob ∧ exprOptAll P fl ∧ winOptAll P w
  | .listagg v sep ov ob => P sep ∧ exprAll P v ∧ overflowAll P ov ∧ ordsAll P ob
  | .curTime _ _ => True
  | .session _ => True
  | .normalize v _ => exprAll P v
  | .query q => queryAll P q
def exprOptAll (P : Str → Prop) : Option Expr → Prop
  | none => True
  | some e => exprAll P e
def exprsAll (P : Str → Prop) : List Expr → Prop
  | [] => True
  | e :: es => exprAll P e ∧ exprsAll P es
def listsAll (P : Str → Prop) : List (List Expr) → Prop
  | [] => True
  | vs :: gs => exprsAll P vs ∧ listsAll P gs
def whensAll (P : Str → Prop) : List (Expr × Expr) → Prop
  | [] => True
  | (c, v) :: bs => exprAll P c ∧ exprAll P v ∧ whensAll P bs
def ordAll (P : Str → Prop) : Ord → Prop
  | .mk v _ _ => exprAll P v
def ordsAll (P : Str → Prop) : List Ord → Prop
  | [] => True
  | o :: os => ordAll P o ∧ ordsAll P os
def boundAll (P : Str → Prop) : Bound → Prop
  | .bounded _ e => exprAll P e
  | .unbounded _ => True
  | .current => True
def winAll (P : Str → Prop) : Win → Prop
  | .mk p ob ps _ st en => optAll P p ∧ ordsAll P ob ∧ exprsAll P ps ∧ boundAll P st ∧ boundAll P en
def winOptAll (P : Str → Prop) : Option Win → Prop
  | none => True
  | some w => winAll P w
def grpAll (P : Str → Prop) : Grp → Prop
  | .set vs => exprsAll P vs
  | .sets gs => listsAll P gs
  | .cube vs => exprsAll P vs
  | .rollup vs => exprsAll P vs
def grpsAll (P : Str → Prop) : List Grp → Prop
  | [] => True
  | g :: gs => grpAll P g ∧ grpsAll P gs
def groupByAll (P : Str → Prop) : GroupBy → Prop
  | .mk gs _ => grpsAll P gs
def groupByOptAll (P : Str → Prop) : Option GroupBy → Prop
  | none => True
  | some g => groupByAll P g
def queryAll (P : Str → Prop) : Query → Prop
  | .mk body _ _ ob w => bodyAll P body ∧ ordsAll P ob ∧ namedsAll P w
def bodyAll (P : Str → Prop) : QBody → Prop
  | .select items fr wh gb hv _ wins =>
    exprsAll P items ∧ relOptAll P fr ∧ exprOptAll P wh ∧ groupByOptAll P gb ∧ exprOptAll P hv ∧
      namedWinsAll P wins
  | .set _ l r _ => queryAll P l ∧ queryAll P r
  | .table t => tableAll P t
  | .values es => exprsAll P es
def namedWinsAll (P : Str → Prop) : List (Str × Win) → Prop
  | [] => True
  | (n, w) :: ws => P n ∧ winAll P w ∧ namedWinsAll P ws
def namedAll (P : Str → Prop) : Named → Prop
  | .mk r a cols => P a ∧ relAll P r ∧ strsAll P cols
def namedsAll (P : Str → Prop) : List Named → Prop
  | [] => True
  | n :: ns => namedAll P n ∧ namedsAll P ns
def relOptAll (P : Str → Prop) : Option Rel → Prop
  | none => True
  | some r => relAll P r
def relAll (P : Str → Prop) : Rel → Prop
  | .table t => tableAll P t
  | .query q => queryAll P q
  | .aliased n => namedAll P n
  | .join l r _ _ cr => relAll P l ∧ relAll P r ∧ critOptAll P cr
  | .unnest as _ => exprsAll P as
  | .lateral q => queryAll P q
  | .sample r _ p => relAll P r ∧ exprAll P p
def critAll (P : Str → Prop) : Crit → Prop
  | .using cols => strsAll P cols
  | .on e => exprAll P e
def critOptAll (P : Str → Prop) : Option Crit → Prop
  | none => True
  | some c => critAll P c
end

end Treeno.Spec
