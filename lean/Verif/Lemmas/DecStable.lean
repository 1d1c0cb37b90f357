import Verif.Spec.Stable
import Verif.Lemmas.Deciding
/-!
# Whether the text of a tree is stable can be decided
-/
namespace Treeno
open Spec

instance (v : Expr) : Decidable (Upright v) := by unfold Upright; split <;> infer_instance
instance (op : UnOp) (v : Expr) : Decidable (SignStable op v) := by unfold SignStable; split <;> infer_instance
instance (o : Opts) (v : Expr) : Decidable (SameInDefault o v) := inferInstanceAs (Decidable (_ = _))
instance (o : Opts) (v : Expr) : Decidable (NotStable o v) := by unfold NotStable; split <;> infer_instance

mutual
def Expr.decStable (bs : List Str) (o : Opts) : (x : Expr) → Decidable (Expr.Stable bs o x)
  | .lit _ _ => inferInstanceAs (Decidable (True))
  | .field n tn _ => inferInstanceAs (Decidable ((truthy tn = none → n ∉ bs)))
  | .fieldOf _ b _ => have := b.decStable bs o; inferInstanceAs (Decidable (b.Stable bs o))
  | .alias v _ => have := v.decStable bs o; inferInstanceAs (Decidable (v.Stable bs o))
  | .star _ _ => inferInstanceAs (Decidable (True))
  | .starOf b _ => have := b.decStable bs o; inferInstanceAs (Decidable (b.Stable bs o))
  | .aliasedStar s _ => have := s.decStable bs o; inferInstanceAs (Decidable (s.Stable bs o))
  | .var n => inferInstanceAs (Decidable (n ∈ bs))
  | .lam ins b => have := b.decStable (ins ++ bs) o; inferInstanceAs (Decidable (b.Stable (ins ++ bs) o))
  | .un op v => have := v.decStable bs o; inferInstanceAs (Decidable (v.Stable bs o ∧ Upright v ∧ SignStable op v))
  | .bin op l r => have := l.decStable bs o; have := r.decStable bs o; inferInstanceAs (Decidable (l.Stable bs o ∧ r.Stable bs o ∧ (op = .and ∨ op = .or ∨ op = .distinct ∨ Upright l ∧ Upright r)))
  | .not v => have := v.decStable bs o; inferInstanceAs (Decidable (v.Stable bs o ∧ Upright v ∧ NotStable o v))
  | .isNull v => have := v.decStable bs o; inferInstanceAs (Decidable (v.Stable bs o ∧ Upright v))
  | .between v l u => have := v.decStable bs o; have := l.decStable bs o; have := u.decStable bs o; inferInstanceAs (Decidable (v.Stable bs o ∧ l.Stable bs o ∧ u.Stable bs o ∧ Upright v ∧ Upright l ∧ Upright u))
  | .array vs => have := Expr.decStables bs o vs; inferInstanceAs (Decidable (Expr.Stables bs o vs))
  | .inQuery v q => have := v.decStable bs o; have := q.decStable bs o; inferInstanceAs (Decidable (v.Stable bs o ∧ q.Stable bs o ∧ Upright v))
  | .inList v es => have := Expr.decStables bs o es; have := v.decStable bs o; inferInstanceAs (Decidable (v.Stable bs o ∧ Expr.Stables bs o es ∧ Upright v))
  | .like v p e => have := Expr.decStableOpt bs o e; have := v.decStable bs o; have := p.decStable bs o; inferInstanceAs (Decidable (v.Stable bs o ∧ p.Stable bs o ∧ Expr.StableOpt bs o e ∧ Upright v ∧ Upright p))
  | .typeCtor _ _ => inferInstanceAs (Decidable (True))
  | .row vs => have := Expr.decStables bs o vs; inferInstanceAs (Decidable (Expr.Stables bs o vs))
  | .interval _ _ _ => inferInstanceAs (Decidable (True))
  | .cast _ e _ => have := e.decStable bs o; inferInstanceAs (Decidable (e.Stable bs o))
  | .subscript v i => have := v.decStable bs o; have := i.decStable bs o; inferInstanceAs (Decidable (v.Stable bs o ∧ i.Stable bs o))
  | .case v ws e => have := Expr.decStableOpt bs o v; have := Expr.decStableWhens bs o ws; have := Expr.decStableOpt bs o e; inferInstanceAs (Decidable (Expr.StableOpt bs o v ∧ Expr.StableWhens bs o ws ∧ Expr.StableOpt bs o e))
  | .func _ as => have := Expr.decStables bs o as; inferInstanceAs (Decidable (Expr.Stables bs o as))
  | .agg _ as ob fl w _ => have := Expr.decStables bs o as; have := Ord.decStables bs o ob; have := Expr.decStableOpt bs o fl; have := Win.decStableOpt bs o w; inferInstanceAs (Decidable (Expr.Stables bs o as ∧ Ord.Stables bs o ob ∧ Expr.StableOpt bs o fl ∧ Win.StableOpt bs o w))
  | .listagg v _ _ ob => have := Ord.decStables bs o ob; have := v.decStable bs o; inferInstanceAs (Decidable (v.Stable bs o ∧ Ord.Stables bs o ob))
  | .curTime _ _ => inferInstanceAs (Decidable (True))
  | .session _ => inferInstanceAs (Decidable (True))
  | .normalize v _ => have := v.decStable bs o; inferInstanceAs (Decidable (v.Stable bs o))
  | .query q => have := q.decStable bs o; inferInstanceAs (Decidable (q.Stable bs o))
def Ord.decStable (bs : List Str) (o : Opts) : (x : Ord) → Decidable (Ord.Stable bs o x)
  | .mk v _ _ => have := v.decStable bs o; inferInstanceAs (Decidable (v.Stable bs o))
def Bound.decStable (bs : List Str) (o : Opts) : (x : Bound) → Decidable (Bound.Stable bs o x)
  | .bounded _ e => have := e.decStable bs o; inferInstanceAs (Decidable (e.Stable bs o))
  | .unbounded _ => inferInstanceAs (Decidable (True))
  | .current => inferInstanceAs (Decidable (True))
def Win.decStable (bs : List Str) (o : Opts) : (x : Win) → Decidable (Win.Stable bs o x)
  | .mk _ ob ps _ st en => have := Ord.decStables bs o ob; have := Expr.decStables bs o ps; have := st.decStable bs o; have := en.decStable bs o; inferInstanceAs (Decidable (Ord.Stables bs o ob ∧ Expr.Stables bs o ps ∧ st.Stable bs o ∧ en.Stable bs o))
def Grp.decStable (bs : List Str) (o : Opts) : (x : Grp) → Decidable (Grp.Stable bs o x)
  | .set vs => have := Expr.decStables bs o vs; inferInstanceAs (Decidable (Expr.Stables bs o vs))
  | .sets gs => have := Expr.decStableLists bs o gs; inferInstanceAs (Decidable (Expr.StableLists bs o gs))
  | .cube vs => have := Expr.decStables bs o vs; inferInstanceAs (Decidable (Expr.Stables bs o vs))
  | .rollup vs => have := Expr.decStables bs o vs; inferInstanceAs (Decidable (Expr.Stables bs o vs))
def GroupBy.decStable (bs : List Str) (o : Opts) : (x : GroupBy) → Decidable (GroupBy.Stable bs o x)
  | .mk gs _ => have := Grp.decStables bs o gs; inferInstanceAs (Decidable (Grp.Stables bs o gs))
def Query.decStable (bs : List Str) (o : Opts) : (x : Query) → Decidable (Query.Stable bs o x)
  | .mk b _ _ ob w => have := Ord.decStables bs o ob; have := Named.decStables bs o w; have := b.decStable bs o; inferInstanceAs (Decidable (b.Stable bs o ∧ Ord.Stables bs o ob ∧ Named.Stables bs o w))
def QBody.decStable (bs : List Str) (o : Opts) : (x : QBody) → Decidable (QBody.Stable bs o x)
  | .select items fr wh gb hv _ wins => have := Expr.decStables bs o items; have := Rel.decStableOpt bs o fr; have := Expr.decStableOpt bs o wh; have := GroupBy.decStableOpt bs o gb; have := Expr.decStableOpt bs o hv; have := Win.decStableNamed bs o wins; inferInstanceAs (Decidable (Expr.Stables bs o items ∧ Rel.StableOpt bs o fr ∧ Expr.StableOpt bs o wh ∧ GroupBy.StableOpt bs o gb ∧ Expr.StableOpt bs o hv ∧ Win.StableNamed bs o wins))
  | .set _ l r _ => have := l.decStable bs o; have := r.decStable bs o; inferInstanceAs (Decidable (l.Stable bs o ∧ r.Stable bs o))
  | .table _ => inferInstanceAs (Decidable (True))
  | .values es => have := Expr.decStables bs o es; inferInstanceAs (Decidable (Expr.Stables bs o es))
def Named.decStable (bs : List Str) (o : Opts) : (x : Named) → Decidable (Named.Stable bs o x)
  | .mk r _ _ => have := r.decStable bs o; inferInstanceAs (Decidable (r.Stable bs o))
def Rel.decStable (bs : List Str) (o : Opts) : (x : Rel) → Decidable (Rel.Stable bs o x)
  | .table _ => inferInstanceAs (Decidable (True))
  | .query q => have := q.decStable bs o; inferInstanceAs (Decidable (q.Stable bs o))
  | .aliased n => have := n.decStable bs o; inferInstanceAs (Decidable (n.Stable bs o))
  | .join l r _ _ cr => have := Crit.decStableOpt bs o cr; have := l.decStable bs o; have := r.decStable bs o; inferInstanceAs (Decidable (l.Stable bs o ∧ r.Stable bs o ∧ Crit.StableOpt bs o cr))
  | .unnest as _ => have := Expr.decStables bs o as; inferInstanceAs (Decidable (Expr.Stables bs o as))
  | .lateral q => have := q.decStable bs o; inferInstanceAs (Decidable (q.Stable bs o))
  | .sample r _ p => have := r.decStable bs o; have := p.decStable bs o; inferInstanceAs (Decidable (r.Stable bs o ∧ p.Stable bs o))
def Crit.decStable (bs : List Str) (o : Opts) : (x : Crit) → Decidable (Crit.Stable bs o x)
  | .using _ => inferInstanceAs (Decidable (True))
  | .on e => have := e.decStable bs o; inferInstanceAs (Decidable (e.Stable bs o))
def Expr.decStableOpt (bs : List Str) (o : Opts) : (x : Option Expr) → Decidable (Expr.StableOpt bs o x)
  | none => inferInstanceAs (Decidable (True))
  | some x => have := x.decStable bs o; inferInstanceAs (Decidable (x.Stable bs o))
def Expr.decStables (bs : List Str) (o : Opts) : (x : List Expr) → Decidable (Expr.Stables bs o x)
  | [] => inferInstanceAs (Decidable (True))
  | x :: xs => have := Expr.decStables bs o xs; have := x.decStable bs o; inferInstanceAs (Decidable (x.Stable bs o ∧ Expr.Stables bs o xs))
def Expr.decStableLists (bs : List Str) (o : Opts) : (x : List (List Expr)) → Decidable (Expr.StableLists bs o x)
  | [] => inferInstanceAs (Decidable (True))
  | x :: xs => have := Expr.decStables bs o x; have := Expr.decStableLists bs o xs; inferInstanceAs (Decidable (Expr.Stables bs o x ∧ Expr.StableLists bs o xs))
def Expr.decStableWhens (bs : List Str) (o : Opts) : (x : List (Expr × Expr)) → Decidable (Expr.StableWhens bs o x)
  | [] => inferInstanceAs (Decidable (True))
  | (c, v) :: xs => have := Expr.decStableWhens bs o xs; have := c.decStable bs o; have := v.decStable bs o; inferInstanceAs (Decidable (c.Stable bs o ∧ v.Stable bs o ∧ Expr.StableWhens bs o xs))
def Ord.decStables (bs : List Str) (o : Opts) : (x : List Ord) → Decidable (Ord.Stables bs o x)
  | [] => inferInstanceAs (Decidable (True))
  | x :: xs => have := Ord.decStables bs o xs; have := x.decStable bs o; inferInstanceAs (Decidable (x.Stable bs o ∧ Ord.Stables bs o xs))
def Win.decStableOpt (bs : List Str) (o : Opts) : (x : Option Win) → Decidable (Win.StableOpt bs o x)
  | none => inferInstanceAs (Decidable (True))
  | some x => have := x.decStable bs o; inferInstanceAs (Decidable (x.Stable bs o))
def Grp.decStables (bs : List Str) (o : Opts) : (x : List Grp) → Decidable (Grp.Stables bs o x)
  | [] => inferInstanceAs (Decidable (True))
  | x :: xs => have := Grp.decStables bs o xs; have := x.decStable bs o; inferInstanceAs (Decidable (x.Stable bs o ∧ Grp.Stables bs o xs))
def GroupBy.decStableOpt (bs : List Str) (o : Opts) : (x : Option GroupBy) → Decidable (GroupBy.StableOpt bs o x)
  | none => inferInstanceAs (Decidable (True))
  | some x => have := x.decStable bs o; inferInstanceAs (Decidable (x.Stable bs o))
def Win.decStableNamed (bs : List Str) (o : Opts) : (x : List (Str × Win)) → Decidable (Win.StableNamed bs o x)
  | [] => inferInstanceAs (Decidable (True))
  | (_, w) :: xs => have := Win.decStableNamed bs o xs; have := w.decStable bs o; inferInstanceAs (Decidable (w.Stable bs o ∧ Win.StableNamed bs o xs))
def Named.decStables (bs : List Str) (o : Opts) : (x : List Named) → Decidable (Named.Stables bs o x)
  | [] => inferInstanceAs (Decidable (True))
  | x :: xs => have := Named.decStables bs o xs; have := x.decStable bs o; inferInstanceAs (Decidable (x.Stable bs o ∧ Named.Stables bs o xs))
def Rel.decStableOpt (bs : List Str) (o : Opts) : (x : Option Rel) → Decidable (Rel.StableOpt bs o x)
  | none => inferInstanceAs (Decidable (True))
  | some x => have := x.decStable bs o; inferInstanceAs (Decidable (x.Stable bs o))
def Crit.decStableOpt (bs : List Str) (o : Opts) : (x : Option Crit) → Decidable (Crit.StableOpt bs o x)
  | none => inferInstanceAs (Decidable (True))
  | some x => have := x.decStable bs o; inferInstanceAs (Decidable (x.Stable bs o))
end

instance (bs : List Str) (o : Opts) (e : Expr) : Decidable (e.Stable bs o) := e.decStable bs o
instance (bs : List Str) (o : Opts) (q : Query) : Decidable (q.Stable bs o) := q.decStable bs o

end Treeno
