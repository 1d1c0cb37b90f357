import Verif.Spec.Rows
/-!
# Whether a tree has a LIMIT 0 can be decided
-/
namespace Treeno

mutual
def Expr.decRows : (x : Expr) → Decidable (Expr.Rows x)
  | .lit _ _ => inferInstanceAs (Decidable (True))
  | .field _ _ _ => inferInstanceAs (Decidable (True))
  | .fieldOf _ b _ => have := b.decRows; inferInstanceAs (Decidable (b.Rows))
  | .alias v _ => have := v.decRows; inferInstanceAs (Decidable (v.Rows))
  | .star _ _ => inferInstanceAs (Decidable (True))
  | .starOf b _ => have := b.decRows; inferInstanceAs (Decidable (b.Rows))
  | .aliasedStar s _ => have := s.decRows; inferInstanceAs (Decidable (s.Rows))
  | .var _ => inferInstanceAs (Decidable (True))
  | .lam _ b => have := b.decRows; inferInstanceAs (Decidable (b.Rows))
  | .un _ v => have := v.decRows; inferInstanceAs (Decidable (v.Rows))
  | .bin _ l r => have := l.decRows; have := r.decRows; inferInstanceAs (Decidable (l.Rows ∧ r.Rows))
  | .not v => have := v.decRows; inferInstanceAs (Decidable (v.Rows))
  | .isNull v => have := v.decRows; inferInstanceAs (Decidable (v.Rows))
  | .between v l u => have := v.decRows; have := l.decRows; have := u.decRows; inferInstanceAs (Decidable (v.Rows ∧ l.Rows ∧ u.Rows))
  | .array vs => have := Expr.decRowss vs; inferInstanceAs (Decidable (Expr.Rowss vs))
  | .inQuery v q => have := v.decRows; have := q.decRows; inferInstanceAs (Decidable (v.Rows ∧ q.Rows))
  | .inList v es => have := Expr.decRowss es; have := v.decRows; inferInstanceAs (Decidable (v.Rows ∧ Expr.Rowss es))
  | .like v p e => have := Expr.decRowsOpt e; have := v.decRows; have := p.decRows; inferInstanceAs (Decidable (v.Rows ∧ p.Rows ∧ Expr.RowsOpt e))
  | .typeCtor _ _ => inferInstanceAs (Decidable (True))
  | .row vs => have := Expr.decRowss vs; inferInstanceAs (Decidable (Expr.Rowss vs))
  | .interval _ _ _ => inferInstanceAs (Decidable (True))
  | .cast _ e _ => have := e.decRows; inferInstanceAs (Decidable (e.Rows))
  | .subscript v i => have := v.decRows; have := i.decRows; inferInstanceAs (Decidable (v.Rows ∧ i.Rows))
  | .case v bs e => have := Expr.decRowsOpt v; have := Expr.decRowsWhens bs; have := Expr.decRowsOpt e; inferInstanceAs (Decidable (Expr.RowsOpt v ∧ Expr.RowsWhens bs ∧ Expr.RowsOpt e))
  | .func _ as => have := Expr.decRowss as; inferInstanceAs (Decidable (Expr.Rowss as))
  | .agg _ as ob fl w _ => have := Expr.decRowss as; have := Ord.decRowss ob; have := Expr.decRowsOpt fl; have := Win.decRowsOpt w; inferInstanceAs (Decidable (Expr.Rowss as ∧ Ord.Rowss ob ∧ Expr.RowsOpt fl ∧ Win.RowsOpt w))
  | .listagg v _ _ ob => have := Ord.decRowss ob; have := v.decRows; inferInstanceAs (Decidable (v.Rows ∧ Ord.Rowss ob))
  | .curTime _ _ => inferInstanceAs (Decidable (True))
  | .session _ => inferInstanceAs (Decidable (True))
  | .normalize v _ => have := v.decRows; inferInstanceAs (Decidable (v.Rows))
  | .query q => have := q.decRows; inferInstanceAs (Decidable (q.Rows))
def Expr.decRowsOpt : (x : Option Expr) → Decidable (Expr.RowsOpt x)
  | none => inferInstanceAs (Decidable (True))
  | some e => have := e.decRows; inferInstanceAs (Decidable (e.Rows))
def Win.decRowsOpt : (x : Option Win) → Decidable (Win.RowsOpt x)
  | none => inferInstanceAs (Decidable (True))
  | some w => have := w.decRows; inferInstanceAs (Decidable (w.Rows))
def GroupBy.decRowsOpt : (x : Option GroupBy) → Decidable (GroupBy.RowsOpt x)
  | none => inferInstanceAs (Decidable (True))
  | some g => have := g.decRows; inferInstanceAs (Decidable (g.Rows))
def Rel.decRowsOpt : (x : Option Rel) → Decidable (Rel.RowsOpt x)
  | none => inferInstanceAs (Decidable (True))
  | some r => have := r.decRows; inferInstanceAs (Decidable (r.Rows))
def Crit.decRowsOpt : (x : Option Crit) → Decidable (Crit.RowsOpt x)
  | none => inferInstanceAs (Decidable (True))
  | some c => have := c.decRows; inferInstanceAs (Decidable (c.Rows))
def Expr.decRowss : (x : List Expr) → Decidable (Expr.Rowss x)
  | [] => inferInstanceAs (Decidable (True))
  | e :: es => have := Expr.decRowss es; have := e.decRows; inferInstanceAs (Decidable (e.Rows ∧ Expr.Rowss es))
def Expr.decRowsWhens : (x : List (Expr × Expr)) → Decidable (Expr.RowsWhens x)
  | [] => inferInstanceAs (Decidable (True))
  | (c, v) :: bs => have := Expr.decRowsWhens bs; have := c.decRows; have := v.decRows; inferInstanceAs (Decidable (c.Rows ∧ v.Rows ∧ Expr.RowsWhens bs))
def Expr.decRowsLists : (x : List (List Expr)) → Decidable (Expr.RowsLists x)
  | [] => inferInstanceAs (Decidable (True))
  | vs :: gs => have := Expr.decRowss vs; have := Expr.decRowsLists gs; inferInstanceAs (Decidable (Expr.Rowss vs ∧ Expr.RowsLists gs))
def Ord.decRows : (x : Ord) → Decidable (Ord.Rows x)
  | .mk v _ _ => have := v.decRows; inferInstanceAs (Decidable (v.Rows))
def Ord.decRowss : (x : List Ord) → Decidable (Ord.Rowss x)
  | [] => inferInstanceAs (Decidable (True))
  | x :: xs => have := Ord.decRowss xs; have := x.decRows; inferInstanceAs (Decidable (x.Rows ∧ Ord.Rowss xs))
def Bound.decRows : (x : Bound) → Decidable (Bound.Rows x)
  | .bounded _ e => have := e.decRows; inferInstanceAs (Decidable (e.Rows))
  | .unbounded _ => inferInstanceAs (Decidable (True))
  | .current => inferInstanceAs (Decidable (True))
def Win.decRows : (x : Win) → Decidable (Win.Rows x)
  | .mk _ ob ps _ st en => have := Ord.decRowss ob; have := Expr.decRowss ps; have := st.decRows; have := en.decRows; inferInstanceAs (Decidable (Ord.Rowss ob ∧ Expr.Rowss ps ∧ st.Rows ∧ en.Rows))
def Grp.decRows : (x : Grp) → Decidable (Grp.Rows x)
  | .set vs => have := Expr.decRowss vs; inferInstanceAs (Decidable (Expr.Rowss vs))
  | .sets gs => have := Expr.decRowsLists gs; inferInstanceAs (Decidable (Expr.RowsLists gs))
  | .cube vs => have := Expr.decRowss vs; inferInstanceAs (Decidable (Expr.Rowss vs))
  | .rollup vs => have := Expr.decRowss vs; inferInstanceAs (Decidable (Expr.Rowss vs))
def Grp.decRowss : (x : List Grp) → Decidable (Grp.Rowss x)
  | [] => inferInstanceAs (Decidable (True))
  | g :: gs => have := Grp.decRowss gs; have := g.decRows; inferInstanceAs (Decidable (g.Rows ∧ Grp.Rowss gs))
def GroupBy.decRows : (x : GroupBy) → Decidable (GroupBy.Rows x)
  | .mk gs _ => have := Grp.decRowss gs; inferInstanceAs (Decidable (Grp.Rowss gs))
def Query.decRows : (x : Query) → Decidable (Query.Rows x)
  | .mk b _ lim ob w => have := Named.decRowsWiths w; have := Ord.decRowss ob; have := b.decRows; inferInstanceAs (Decidable (lim ≠ some 0 ∧ Named.RowsWiths w ∧ Ord.Rowss ob ∧ b.Rows))
def QBody.decRows : (x : QBody) → Decidable (QBody.Rows x)
  | .select items fr wh gb hv _ wins => have := Expr.decRowss items; have := Rel.decRowsOpt fr; have := Expr.decRowsOpt wh; have := GroupBy.decRowsOpt gb; have := Expr.decRowsOpt hv; have := Win.decRowsNamed wins; inferInstanceAs (Decidable (Expr.Rowss items ∧ Rel.RowsOpt fr ∧ Expr.RowsOpt wh ∧ GroupBy.RowsOpt gb ∧ Expr.RowsOpt hv ∧ Win.RowsNamed wins))
  | .set _ l r _ => have := l.decRows; have := r.decRows; inferInstanceAs (Decidable (l.Rows ∧ r.Rows))
  | .table _ => inferInstanceAs (Decidable (True))
  | .values es => have := Expr.decRowss es; inferInstanceAs (Decidable (Expr.Rowss es))
def Win.decRowsNamed : (x : List (Str × Win)) → Decidable (Win.RowsNamed x)
  | [] => inferInstanceAs (Decidable (True))
  | (_, w) :: ws => have := Win.decRowsNamed ws; have := w.decRows; inferInstanceAs (Decidable (w.Rows ∧ Win.RowsNamed ws))
def Named.decRows : (x : Named) → Decidable (Named.Rows x)
  | .mk r _ _ => have := r.decRows; inferInstanceAs (Decidable (r.Rows))
def Named.decRowsWith : (x : Named) → Decidable (Named.RowsWith x)
  | .mk r _ _ => have := r.decRows; inferInstanceAs (Decidable (r.Rows))
def Named.decRowsWiths : (x : List Named) → Decidable (Named.RowsWiths x)
  | [] => inferInstanceAs (Decidable (True))
  | n :: ns => have := Named.decRowsWiths ns; have := n.decRowsWith; inferInstanceAs (Decidable (n.RowsWith ∧ Named.RowsWiths ns))
def Rel.decRows : (x : Rel) → Decidable (Rel.Rows x)
  | .table _ => inferInstanceAs (Decidable (True))
  | .query q => have := q.decRows; inferInstanceAs (Decidable (q.Rows))
  | .aliased n => have := n.decRows; inferInstanceAs (Decidable (n.Rows))
  | .join l r _ _ cr => have := Crit.decRowsOpt cr; have := l.decRows; have := r.decRows; inferInstanceAs (Decidable (l.Rows ∧ r.Rows ∧ Crit.RowsOpt cr))
  | .unnest as _ => have := Expr.decRowss as; inferInstanceAs (Decidable (Expr.Rowss as))
  | .lateral q => have := q.decRows; inferInstanceAs (Decidable (q.Rows))
  | .sample r _ p => have := r.decRows; have := p.decRows; inferInstanceAs (Decidable (r.Rows ∧ p.Rows))
def Crit.decRows : (x : Crit) → Decidable (Crit.Rows x)
  | .using _ => inferInstanceAs (Decidable (True))
  | .on e => have := e.decRows; inferInstanceAs (Decidable (e.Rows))
end

instance (e : Expr) : Decidable e.Rows := e.decRows
instance (q : Query) : Decidable q.Rows := q.decRows

end Treeno
