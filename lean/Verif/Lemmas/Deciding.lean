import Verif.Spec.Fits
import Verif.Spec.TypeText
/-!
# The conditions on trees can be decided

Used to show that concrete trees meet the hypotheses of the theorems.
-/
namespace Treeno
open Spec

instance {α : Type} (p : α → Prop) [∀ a, Decidable (p a)] (o : Option α) : Decidable (IfAny p o) := match o with
  | none => .isTrue fun _ h => nomatch h
  | some a => decidable_of_iff (p a) ⟨fun h b hb => (Option.some.inj hb) ▸ h, fun h => h a rfl⟩
instance (w : Str) : Decidable (IsWord w) := match w with
  | [] => .isFalse fun ⟨_, _, h, _⟩ => nomatch h
  | c :: s => decidable_of_iff (isIdStart c = true ∧ ∀ d ∈ s, isIdChar d = true)
      ⟨fun h => ⟨c, s, rfl, h.1, h.2⟩, fun ⟨_, _, h, a, b⟩ => by cases h; exact ⟨a, b⟩⟩
instance (s : Str) : Decidable (NoBreak s) := inferInstanceAs (Decidable (∀ c ∈ s, isBreak c = false))
instance (s : Str) : Decidable (NameOk s) := inferInstanceAs (Decidable (_ ∧ _))
instance (s : Str) : Decidable (StrOk s) := inferInstanceAs (Decidable (_ ∧ _))
instance (d : Dec) : Decidable (DecOk d) := inferInstanceAs (Decidable (_ ∧ _))
instance (v : Option Scalar) : Decidable (LitOk v) := match v with
  | some (.float _) => .isFalse id
  | some (.dec d) => inferInstanceAs (Decidable (DecOk d))
  | some (.str s) => inferInstanceAs (Decidable (StrOk s))
  | none => .isTrue trivial
  | some (.bool _) => .isTrue trivial
  | some (.int _) => .isTrue trivial
instance (t : TableRef) : Decidable (TableOk t) := inferInstanceAs (Decidable (_ ∧ _ ∧ _))
instance (t : JoinType) (a b : Bool) : Decidable (JoinOk t a b) := inferInstanceAs (Decidable (_ ∨ _))
instance : (q : Query) → Decidable q.noWith
  | .mk _ _ _ _ [] => .isTrue rfl
  | .mk _ _ _ _ (_ :: _) => .isFalse fun h => nomatch h
instance {α : Type} (l : List α) : Decidable (l = []) := match l with
  | [] => .isTrue rfl
  | _ :: _ => .isFalse fun h => nomatch h

mutual
def Expr.decTidy (item : Bool) : (x : Expr) → Decidable (Expr.Tidy item x)
  | .lit v _ => inferInstanceAs (Decidable (LitOk v))
  | .field n t _ => inferInstanceAs (Decidable (NameOk n ∧ IfAny NameOk (truthy t)))
  | .fieldOf _ _ _ => inferInstanceAs (Decidable (False))
  | .alias v n => have := v.decTidy false; inferInstanceAs (Decidable (item = true ∧ NameOk n ∧ v.Tidy false))
  | .star t _ => inferInstanceAs (Decidable (item = true ∧ IfAny IsWord (truthy t)))
  | .starOf _ _ => inferInstanceAs (Decidable (False))
  | .aliasedStar _ _ => inferInstanceAs (Decidable (False))
  | .var n => inferInstanceAs (Decidable (IsWord n))
  | .lam ins b => have := b.decTidy false; inferInstanceAs (Decidable (ins ≠ [] ∧ (∀ n ∈ ins, IsWord n) ∧ b.Tidy false))
  | .un op v => have := v.decTidy false; inferInstanceAs (Decidable (v.Tidy false ∧ (op = .neg → needsParen (some 8) v.prec true = true ∨ v.first ≠ .dash)))
  | .bin _ l r => have := l.decTidy false; have := r.decTidy false; inferInstanceAs (Decidable (l.Tidy false ∧ r.Tidy false))
  | .not v => have := v.decTidy false; inferInstanceAs (Decidable (v.Tidy false))
  | .isNull v => have := v.decTidy false; inferInstanceAs (Decidable (v.Tidy false))
  | .between v l u => have := v.decTidy false; have := l.decTidy false; have := u.decTidy false; inferInstanceAs (Decidable (v.Tidy false ∧ l.Tidy false ∧ u.Tidy false))
  | .array vs => have := Expr.decTidys false vs; inferInstanceAs (Decidable (Expr.Tidys false vs))
  | .inQuery v q => have := v.decTidy false; have := q.decTidy; inferInstanceAs (Decidable (v.Tidy false ∧ q.Tidy))
  | .inList v es => have := Expr.decTidys false es; have := v.decTidy false; inferInstanceAs (Decidable (v.Tidy false ∧ Expr.Tidys false es))
  | .like v p e => have := Expr.decTidyOpt e; have := v.decTidy false; have := p.decTidy false; inferInstanceAs (Decidable (v.Tidy false ∧ p.Tidy false ∧ Expr.TidyOpt e))
  | .typeCtor v t => inferInstanceAs (Decidable (StrOk v ∧ IsWord t))
  | .row vs => have := Expr.decTidys false vs; inferInstanceAs (Decidable (Expr.Tidys false vs))
  | .interval _ _ _ => inferInstanceAs (Decidable (False))
  | .cast _ e _ => have := e.decTidy false; inferInstanceAs (Decidable (e.Tidy false))
  | .subscript v i => have := v.decTidy false; have := i.decTidy false; inferInstanceAs (Decidable (v.Tidy false ∧ i.Tidy false))
  | .case v bs e => have := Expr.decTidyOpt v; have := Expr.decTidyWhens bs; have := Expr.decTidyOpt e; inferInstanceAs (Decidable (Expr.TidyOpt v ∧ bs ≠ [] ∧ Expr.TidyWhens bs ∧ Expr.TidyOpt e))
  | .func _ as => have := Expr.decTidys false as; inferInstanceAs (Decidable (Expr.Tidys false as))
  | .agg _ as ob fl w ign => have := Expr.decTidys (isStarArg as) as; have := Ord.decTidys ob; have := Expr.decTidyOpt fl; have := Win.decTidyOpt w; inferInstanceAs (Decidable (Expr.Tidys (isStarArg as) as ∧ (isStarArg as = true → ob = [] ∧ ign = false) ∧ (as = [] → ob = []) ∧ Ord.Tidys ob ∧ Expr.TidyOpt fl ∧ Win.TidyOpt w))
  | .listagg v sep ov ob => have := Ord.decTidys ob; have := v.decTidy false; inferInstanceAs (Decidable (v.Tidy false ∧ StrOk sep ∧ IfAny (fun f => StrOk f.1) ov ∧ Ord.Tidys ob))
  | .curTime _ p => inferInstanceAs (Decidable (0 ≤ p))
  | .session _ => inferInstanceAs (Decidable (True))
  | .normalize _ _ => inferInstanceAs (Decidable (False))
  | .query _ => inferInstanceAs (Decidable (False))
def Expr.decTidyOpt : (x : Option Expr) → Decidable (Expr.TidyOpt x)
  | none => inferInstanceAs (Decidable (True))
  | some e => have := e.decTidy false; inferInstanceAs (Decidable (e.Tidy false))
def Win.decTidyOpt : (x : Option Win) → Decidable (Win.TidyOpt x)
  | none => inferInstanceAs (Decidable (True))
  | some w => have := w.decTidy; inferInstanceAs (Decidable (w.Tidy))
def GroupBy.decTidyOpt : (x : Option GroupBy) → Decidable (GroupBy.TidyOpt x)
  | none => inferInstanceAs (Decidable (True))
  | some g => have := g.decTidy; inferInstanceAs (Decidable (g.Tidy))
def Rel.decTidyOpt : (x : Option Rel) → Decidable (Rel.TidyOpt x)
  | none => inferInstanceAs (Decidable (True))
  | some r => have := r.decTidy; inferInstanceAs (Decidable (r.Tidy))
def Crit.decTidyOpt : (x : Option Crit) → Decidable (Crit.TidyOpt x)
  | none => inferInstanceAs (Decidable (True))
  | some c => have := c.decTidy; inferInstanceAs (Decidable (c.Tidy))
def Expr.decTidys (item : Bool) : (x : List Expr) → Decidable (Expr.Tidys item x)
  | [] => inferInstanceAs (Decidable (True))
  | e :: es => have := Expr.decTidys item es; have := e.decTidy; inferInstanceAs (Decidable (e.Tidy item ∧ Expr.Tidys item es))
def Expr.decTidyWhens : (x : List (Expr × Expr)) → Decidable (Expr.TidyWhens x)
  | [] => inferInstanceAs (Decidable (True))
  | (c, v) :: bs => have := Expr.decTidyWhens bs; have := c.decTidy false; have := v.decTidy false; inferInstanceAs (Decidable (c.Tidy false ∧ v.Tidy false ∧ Expr.TidyWhens bs))
def Ord.decTidy : (x : Ord) → Decidable (Ord.Tidy x)
  | .mk v _ _ => have := v.decTidy false; inferInstanceAs (Decidable (v.Tidy false))
def Ord.decTidys : (x : List Ord) → Decidable (Ord.Tidys x)
  | [] => inferInstanceAs (Decidable (True))
  | x :: xs => have := Ord.decTidys xs; have := x.decTidy; inferInstanceAs (Decidable (x.Tidy ∧ Ord.Tidys xs))
def Bound.decTidy : (x : Bound) → Decidable (Bound.Tidy x)
  | .bounded _ e => have := e.decTidy false; inferInstanceAs (Decidable (e.Tidy false))
  | .unbounded _ => inferInstanceAs (Decidable (True))
  | .current => inferInstanceAs (Decidable (True))
def Win.decTidy : (x : Win) → Decidable (Win.Tidy x)
  | .mk p ob ps _ st en => have := Ord.decTidys ob; have := Expr.decTidys false ps; have := st.decTidy; have := en.decTidy; inferInstanceAs (Decidable (IfAny IsWord (truthy p) ∧ Ord.Tidys ob ∧ Expr.Tidys false ps ∧ st.Tidy ∧ en.Tidy))
def Grp.decTidy : (x : Grp) → Decidable (Grp.Tidy x)
  | .set vs => have := Expr.decTidys false vs; inferInstanceAs (Decidable (Expr.Tidys false vs))
  | .sets gs => have := Expr.decTidyLists gs; inferInstanceAs (Decidable (Expr.TidyLists gs))
  | .cube vs => have := Expr.decTidys false vs; inferInstanceAs (Decidable (Expr.Tidys false vs))
  | .rollup vs => have := Expr.decTidys false vs; inferInstanceAs (Decidable (Expr.Tidys false vs))
def Expr.decTidyLists : (x : List (List Expr)) → Decidable (Expr.TidyLists x)
  | [] => inferInstanceAs (Decidable (True))
  | vs :: gs => have := Expr.decTidys false vs; have := Expr.decTidyLists gs; inferInstanceAs (Decidable (Expr.Tidys false vs ∧ Expr.TidyLists gs))
def Grp.decTidys : (x : List Grp) → Decidable (Grp.Tidys x)
  | [] => inferInstanceAs (Decidable (True))
  | g :: gs => have := Grp.decTidys gs; have := g.decTidy; inferInstanceAs (Decidable (g.Tidy ∧ Grp.Tidys gs))
def GroupBy.decTidy : (x : GroupBy) → Decidable (GroupBy.Tidy x)
  | .mk gs _ => have := Grp.decTidys gs; inferInstanceAs (Decidable (gs ≠ [] ∧ Grp.Tidys gs))
def Query.decTidy : (x : Query) → Decidable (Query.Tidy x)
  | .mk body off lim ob w => have := Ord.decTidys ob; have := Named.decTidys w; have := body.decTidy; inferInstanceAs (Decidable (body.Tidy ∧ IfAny (fun n => 0 ≤ n) off ∧ IfAny (fun n => 0 ≤ n) lim ∧ Ord.Tidys ob ∧ Named.Tidys w))
def QBody.decTidy : (x : QBody) → Decidable (QBody.Tidy x)
  | .select items fr wh gb hv _ wins => have := Expr.decTidys true items; have := Rel.decTidyOpt fr; have := Expr.decTidyOpt wh; have := GroupBy.decTidyOpt gb; have := Expr.decTidyOpt hv; have := Win.decTidyNamed wins; inferInstanceAs (Decidable (items ≠ [] ∧ Expr.Tidys true items ∧ Rel.TidyOpt fr ∧ Expr.TidyOpt wh ∧ GroupBy.TidyOpt gb ∧ Expr.TidyOpt hv ∧ Win.TidyNamed wins))
  | .set _ l r _ => have := l.decTidy; have := r.decTidy; inferInstanceAs (Decidable (l.Tidy ∧ r.Tidy ∧ l.noWith ∧ r.noWith))
  | .table t => inferInstanceAs (Decidable (TableOk t))
  | .values es => have := Expr.decTidys false es; inferInstanceAs (Decidable (es ≠ [] ∧ Expr.Tidys false es))
def Win.decTidyNamed : (x : List (Str × Win)) → Decidable (Win.TidyNamed x)
  | [] => inferInstanceAs (Decidable (True))
  | (n, w) :: ws => have := Win.decTidyNamed ws; have := w.decTidy; inferInstanceAs (Decidable (IsWord n ∧ w.Tidy ∧ Win.TidyNamed ws))
def Named.decTidy : (x : Named) → Decidable (Named.Tidy x)
  | .mk r a cols => have := r.decTidy; inferInstanceAs (Decidable (r.Tidy ∧ NameOk a ∧ ∀ n ∈ cols, IsWord n))
def Named.decTidyWith : (x : Named) → Decidable (Named.TidyWith x)
  | .mk r a cols => have := r.decTidy; inferInstanceAs (Decidable (r.Tidy ∧ r.isQuery = true ∧ NameOk a ∧ cols = []))
def Named.decTidys : (x : List Named) → Decidable (Named.Tidys x)
  | [] => inferInstanceAs (Decidable (True))
  | n :: ns => have := Named.decTidys ns; have := n.decTidyWith; inferInstanceAs (Decidable (n.TidyWith ∧ Named.Tidys ns))
def Rel.decTidy : (x : Rel) → Decidable (Rel.Tidy x)
  | .table t => inferInstanceAs (Decidable (TableOk t))
  | .query q => have := q.decTidy; inferInstanceAs (Decidable (q.Tidy))
  | .aliased n => have := n.decTidy; inferInstanceAs (Decidable (n.Tidy))
  | .join l r t nat cr => have := Crit.decTidyOpt cr; have := l.decTidy; have := r.decTidy; inferInstanceAs (Decidable (l.Tidy ∧ r.Tidy ∧ JoinOk t nat cr.isSome ∧ Crit.TidyOpt cr))
  | .unnest as ord => have := Expr.decTidys false as; inferInstanceAs (Decidable (Expr.Tidys false as ∧ ord = false))
  | .lateral q => have := q.decTidy; inferInstanceAs (Decidable (q.Tidy))
  | .sample r _ p => have := r.decTidy; have := p.decTidy false; inferInstanceAs (Decidable (r.Tidy ∧ p.Tidy false))
def Crit.decTidy : (x : Crit) → Decidable (Crit.Tidy x)
  | .using cols => inferInstanceAs (Decidable (cols ≠ [] ∧ ∀ n ∈ cols, IsWord n))
  | .on e => have := e.decTidy false; inferInstanceAs (Decidable (e.Tidy false))
end

mutual
def Expr.decBody : (x : Expr) → Decidable (Expr.Body x)
  | .lit _ _ => inferInstanceAs (Decidable (True))
  | .field _ _ t => inferInstanceAs (Decidable (t = .unknown))
  | .fieldOf _ _ _ => inferInstanceAs (Decidable (False))
  | .alias _ _ => inferInstanceAs (Decidable (False))
  | .star _ _ => inferInstanceAs (Decidable (True))
  | .starOf _ _ => inferInstanceAs (Decidable (False))
  | .aliasedStar _ _ => inferInstanceAs (Decidable (False))
  | .var _ => inferInstanceAs (Decidable (True))
  | .lam _ b => have := b.decBody; inferInstanceAs (Decidable (b.Body))
  | .un _ v => have := v.decBody; inferInstanceAs (Decidable (v.Body))
  | .bin _ l r => have := l.decBody; have := r.decBody; inferInstanceAs (Decidable (l.Body ∧ r.Body))
  | .not v => have := v.decBody; inferInstanceAs (Decidable (v.Body))
  | .isNull v => have := v.decBody; inferInstanceAs (Decidable (v.Body))
  | .between v l u => have := v.decBody; have := l.decBody; have := u.decBody; inferInstanceAs (Decidable (v.Body ∧ l.Body ∧ u.Body))
  | .array vs => have := Expr.decBodys vs; inferInstanceAs (Decidable (Expr.Bodys vs))
  | .inQuery _ _ => inferInstanceAs (Decidable (False))
  | .inList v es => have := Expr.decBodys es; have := v.decBody; inferInstanceAs (Decidable (v.Body ∧ Expr.Bodys es))
  | .like v p e => have := Expr.decBodyOpt e; have := v.decBody; have := p.decBody; inferInstanceAs (Decidable (v.Body ∧ p.Body ∧ Expr.BodyOpt e))
  | .typeCtor _ _ => inferInstanceAs (Decidable (True))
  | .row vs => have := Expr.decBodys vs; inferInstanceAs (Decidable (Expr.Bodys vs))
  | .interval _ _ _ => inferInstanceAs (Decidable (True))
  | .cast _ e _ => have := e.decBody; inferInstanceAs (Decidable (e.Body))
  | .subscript v i => have := v.decBody; have := i.decBody; inferInstanceAs (Decidable (v.Body ∧ i.Body))
  | .case v bs e => have := Expr.decBodyOpt v; have := Expr.decBodyWhens bs; have := Expr.decBodyOpt e; inferInstanceAs (Decidable (Expr.BodyOpt v ∧ Expr.BodyWhens bs ∧ Expr.BodyOpt e))
  | .func _ as => have := Expr.decBodys as; inferInstanceAs (Decidable (Expr.Bodys as))
  | .agg _ as ob fl w _ => have := Expr.decBodys as; have := Ord.decBodys ob; have := Expr.decBodyOpt fl; have := Win.decBodyOpt w; inferInstanceAs (Decidable (Expr.Bodys as ∧ Ord.Bodys ob ∧ Expr.BodyOpt fl ∧ Win.BodyOpt w))
  | .listagg v _ _ ob => have := Ord.decBodys ob; have := v.decBody; inferInstanceAs (Decidable (v.Body ∧ Ord.Bodys ob))
  | .curTime _ _ => inferInstanceAs (Decidable (True))
  | .session _ => inferInstanceAs (Decidable (True))
  | .normalize v _ => have := v.decBody; inferInstanceAs (Decidable (v.Body))
  | .query _ => inferInstanceAs (Decidable (False))
def Expr.decBodyOpt : (x : Option Expr) → Decidable (Expr.BodyOpt x)
  | none => inferInstanceAs (Decidable (True))
  | some e => have := e.decBody; inferInstanceAs (Decidable (e.Body))
def Win.decBodyOpt : (x : Option Win) → Decidable (Win.BodyOpt x)
  | none => inferInstanceAs (Decidable (True))
  | some w => have := w.decBody; inferInstanceAs (Decidable (w.Body))
def Expr.decBodys : (x : List Expr) → Decidable (Expr.Bodys x)
  | [] => inferInstanceAs (Decidable (True))
  | e :: es => have := Expr.decBodys es; have := e.decBody; inferInstanceAs (Decidable (e.Body ∧ Expr.Bodys es))
def Expr.decBodyWhens : (x : List (Expr × Expr)) → Decidable (Expr.BodyWhens x)
  | [] => inferInstanceAs (Decidable (True))
  | (c, v) :: bs => have := Expr.decBodyWhens bs; have := c.decBody; have := v.decBody; inferInstanceAs (Decidable (c.Body ∧ v.Body ∧ Expr.BodyWhens bs))
def Ord.decBodys : (x : List Ord) → Decidable (Ord.Bodys x)
  | [] => inferInstanceAs (Decidable (True))
  | .mk v _ _ :: xs => have := Ord.decBodys xs; have := v.decBody; inferInstanceAs (Decidable (v.Body ∧ Ord.Bodys xs))
def Bound.decBody : (x : Bound) → Decidable (Bound.Body x)
  | .bounded _ e => have := e.decBody; inferInstanceAs (Decidable (e.Body))
  | .unbounded _ => inferInstanceAs (Decidable (True))
  | .current => inferInstanceAs (Decidable (True))
def Win.decBody : (x : Win) → Decidable (Win.Body x)
  | .mk _ ob ps _ st en => have := Ord.decBodys ob; have := Expr.decBodys ps; have := st.decBody; have := en.decBody; inferInstanceAs (Decidable (Ord.Bodys ob ∧ Expr.Bodys ps ∧ st.Body ∧ en.Body))
end


instance (w : Str) : Decidable (FreeWord w) := inferInstanceAs (Decidable (_ → _))
instance (d : Dec) : Decidable (Negatable d) := inferInstanceAs (Decidable (_ ∧ _))
instance (v : Option Scalar) : Decidable (LitFits v) := match v with
  | some (.dec d) => inferInstanceAs (Decidable (_ ∧ (_ → _)))
  | none => .isTrue trivial
  | some (.bool _) => .isTrue trivial
  | some (.int _) => .isTrue trivial
  | some (.float _) => .isTrue trivial
  | some (.str _) => .isTrue trivial
instance (op : UnOp) (e : Expr) : Decidable (SignFits op e) := by unfold SignFits; split <;> infer_instance
instance (f : Fn) (n : Nat) : Decidable (FnFits f n) := inferInstanceAs (Decidable (_ → _))
instance (f : Agg) (n : Nat) : Decidable (AggFits f n) := inferInstanceAs (Decidable (_ → _))
instance (t : TableRef) : Decidable (TableFits t) := inferInstanceAs (Decidable (_ → _))
instance (v : Expr) (c : Option Nat) (l : Bool) (n : Nat) : Decidable (v.At c l n) := inferInstanceAs (Decidable (_ ∨ _))
instance (es : List Expr) : Decidable (Expr.OneFits es) := by unfold Expr.OneFits; split <;> infer_instance

mutual
def Ty.decReadable : (t : Ty) → Decidable (Readable t)
  | .simple s => .isTrue (.simple s)
  | .decimal p s => decidable_of_iff (0 ≤ p ∧ 0 ≤ s) ⟨fun h => .decimal p s h.1 h.2, fun h => by cases h; constructor <;> assumption⟩
  | .varchar n => decidable_of_iff (IfAny (fun m => 0 ≤ m) n) ⟨fun h => .varchar n h, fun h => by cases h; assumption⟩
  | .char n => decidable_of_iff (0 ≤ n) ⟨fun h => .char n h, fun h => by cases h; assumption⟩
  | .time p z => decidable_of_iff (IfAny (fun m => 0 ≤ m) p) ⟨fun h => .time p z h, fun h => by cases h; assumption⟩
  | .timestamp p z => decidable_of_iff (IfAny (fun m => 0 ≤ m) p) ⟨fun h => .timestamp p z h, fun h => by cases h; assumption⟩
  | .interval k => .isTrue (.interval k)
  | .array t => have := t.decReadable; decidable_of_iff (Readable t) ⟨fun h => .array t h, fun h => by cases h; assumption⟩
  | .map a b => have := a.decReadable; have := b.decReadable
    decidable_of_iff (Readable a ∧ Readable b) ⟨fun h => .map a b h.1 h.2, fun h => by cases h; constructor <;> assumption⟩
  | .row l => have := Ty.decReadables l
    decidable_of_iff (l ≠ [] ∧ ∀ t ∈ l, Readable t) ⟨fun h => .row l h.1 h.2, fun h => by cases h; constructor <;> assumption⟩
  | .qdigest t => have := t.decReadable; decidable_of_iff (Readable t) ⟨fun h => .qdigest t h, fun h => by cases h; assumption⟩
def Ty.decReadables : (l : List Ty) → Decidable (∀ t ∈ l, Readable t)
  | [] => .isTrue (by simp)
  | t :: ts => have := t.decReadable; have := Ty.decReadables ts
    decidable_of_iff (Readable t ∧ ∀ t ∈ ts, Readable t) (by simp)
end
mutual
def Ty.decValid : (t : Ty) → Decidable (Valid t)
  | .simple s => .isTrue (.simple s)
  | .decimal p s => decidable_of_iff (0 ≤ p ∧ p ≤ 38) ⟨fun h => .decimal p s h.1 h.2, fun h => by cases h; constructor <;> assumption⟩
  | .varchar n => .isTrue (.varchar n)
  | .char n => .isTrue (.char n)
  | .time p z => decidable_of_iff (IfAny (fun m => 0 ≤ m ∧ m ≤ 12) p) ⟨fun h => .time p z h, fun h => by cases h; assumption⟩
  | .timestamp p z => decidable_of_iff (IfAny (fun m => 0 ≤ m ∧ m ≤ 12) p) ⟨fun h => .timestamp p z h, fun h => by cases h; assumption⟩
  | .interval k => .isTrue (.interval k)
  | .array t => have := t.decValid; decidable_of_iff (Valid t) ⟨fun h => .array t h, fun h => by cases h; assumption⟩
  | .map a b => have := a.decValid; have := b.decValid
    decidable_of_iff (Valid a ∧ Valid b) ⟨fun h => .map a b h.1 h.2, fun h => by cases h; constructor <;> assumption⟩
  | .row l => have := Ty.decValids l
    decidable_of_iff (∀ t ∈ l, Valid t) ⟨fun h => .row l h, fun h => by cases h; assumption⟩
  | .qdigest t => have := t.decValid; decidable_of_iff (Valid t) ⟨fun h => .qdigest t h, fun h => by cases h; assumption⟩
def Ty.decValids : (l : List Ty) → Decidable (∀ t ∈ l, Valid t)
  | [] => .isTrue (by simp)
  | t :: ts => have := t.decValid; have := Ty.decValids ts
    decidable_of_iff (Valid t ∧ ∀ t ∈ ts, Valid t) (by simp)
end
instance (t : Ty) : Decidable (Readable t) := t.decReadable
instance (t : Ty) : Decidable (Valid t) := t.decValid

mutual
def Expr.decFits : (x : Expr) → Decidable (Expr.Fits x)
  | .lit v _ => inferInstanceAs (Decidable (LitFits v))
  | .field _ _ _ => inferInstanceAs (Decidable (True))
  | .fieldOf _ _ _ => inferInstanceAs (Decidable (True))
  | .alias v _ => have := v.decFits; inferInstanceAs (Decidable (v.Fits))
  | .star t _ => inferInstanceAs (Decidable (IfAny FreeWord (truthy t)))
  | .starOf _ _ => inferInstanceAs (Decidable (True))
  | .aliasedStar _ _ => inferInstanceAs (Decidable (True))
  | .var n => inferInstanceAs (Decidable (FreeWord n))
  | .lam ins b => have := b.decFits; have := b.reread.decBody; inferInstanceAs (Decidable ((∀ n ∈ ins, FreeWord n) ∧ b.Fits ∧ b.reread.Body))
  | .un op v => have := v.decFits; inferInstanceAs (Decidable (v.Fits ∧ v.At (some 8) true 7 ∧ SignFits op v ∧ (op = .neg → isNumber v = true ∨ needsParen (some 8) v.prec true = true ∨ v.first ≠ .num)))
  | .bin op l r => have := l.decFits; have := r.decFits; inferInstanceAs (Decidable (l.Fits ∧ r.Fits ∧ l.At op.prec true (leftLevel op) ∧ r.At op.prec false (rightLevel op)))
  | .not v => have := v.decFits; inferInstanceAs (Decidable (v.Fits ∧ (v.negatable = false → v.At (some 2) true 2)))
  | .isNull v => have := v.decFits; inferInstanceAs (Decidable (v.Fits ∧ v.At (some 3) true 4))
  | .between v l u => have := v.decFits; have := l.decFits; have := u.decFits; inferInstanceAs (Decidable (v.Fits ∧ l.Fits ∧ u.Fits ∧ v.At (some 3) true 4 ∧ l.At (some 3) true 4 ∧ u.At (some 3) true 4))
  | .array vs => have := Expr.decFitss vs; inferInstanceAs (Decidable (Expr.Fitss vs))
  | .inQuery v q => have := v.decFits; have := q.decFits; inferInstanceAs (Decidable (v.Fits ∧ q.Fits ∧ v.At (some 3) true 4))
  | .inList v es => have := Expr.decFitss es; have := v.decFits; inferInstanceAs (Decidable (v.Fits ∧ Expr.Fitss es ∧ v.At (some 3) true 4 ∧ es ≠ []))
  | .like v p e => have := Expr.decFitsOpt e; have := v.decFits; have := p.decFits; inferInstanceAs (Decidable (v.Fits ∧ p.Fits ∧ Expr.FitsOpt e ∧ v.At (some 3) true 4 ∧ p.At (some 3) true 4 ∧ IfAny (fun x => x.At none true 4) e))
  | .typeCtor _ t => inferInstanceAs (Decidable (FreeWord t))
  | .row vs => have := Expr.decFitss vs; inferInstanceAs (Decidable (Expr.Fitss vs ∧ 2 ≤ vs.length))
  | .interval _ _ _ => inferInstanceAs (Decidable (True))
  | .cast _ e t => have := e.decFits; inferInstanceAs (Decidable (e.Fits ∧ Valid t ∧ Readable t))
  | .subscript v i => have := v.decFits; have := i.decFits; inferInstanceAs (Decidable (v.Fits ∧ i.Fits ∧ v.At none true 8 ∧ i.At none true 4))
  | .case v bs e => have := Expr.decFitsOpt v; have := Expr.decFitsWhens bs; have := Expr.decFitsOpt e; inferInstanceAs (Decidable (Expr.FitsOpt v ∧ Expr.FitsWhens bs ∧ Expr.FitsOpt e))
  | .func f as => have := Expr.decFitss as; inferInstanceAs (Decidable (Expr.Fitss as ∧ FnFits f as.length))
  | .agg f as ob fl w ign => have := Expr.decFitss as; have := Ord.decFitss ob; have := Expr.decFitsOpt fl; have := Win.decFitsOpt w; inferInstanceAs (Decidable (Expr.Fitss as ∧ Ord.Fitss ob ∧ Expr.FitsOpt fl ∧ Win.FitsOpt w ∧ AggFits f as.length ∧ (ign = true → w.isSome = true)))
  | .listagg v _ _ ob => have := Ord.decFitss ob; have := v.decFits; inferInstanceAs (Decidable (v.Fits ∧ Ord.Fitss ob ∧ ob ≠ []))
  | .curTime _ _ => inferInstanceAs (Decidable (True))
  | .session _ => inferInstanceAs (Decidable (True))
  | .normalize _ _ => inferInstanceAs (Decidable (True))
  | .query _ => inferInstanceAs (Decidable (True))
def Expr.decFitsOpt : (x : Option Expr) → Decidable (Expr.FitsOpt x)
  | none => inferInstanceAs (Decidable (True))
  | some e => have := e.decFits; inferInstanceAs (Decidable (e.Fits))
def Win.decFitsOpt : (x : Option Win) → Decidable (Win.FitsOpt x)
  | none => inferInstanceAs (Decidable (True))
  | some w => have := w.decFits; inferInstanceAs (Decidable (w.Fits))
def GroupBy.decFitsOpt : (x : Option GroupBy) → Decidable (GroupBy.FitsOpt x)
  | none => inferInstanceAs (Decidable (True))
  | some g => have := g.decFits; inferInstanceAs (Decidable (g.Fits))
def Rel.decFitsOpt : (x : Option Rel) → Decidable (Rel.FitsOpt x)
  | none => inferInstanceAs (Decidable (True))
  | some r => have := r.decFits; inferInstanceAs (Decidable (r.Fits))
def Crit.decFitsOpt : (x : Option Crit) → Decidable (Crit.FitsOpt x)
  | none => inferInstanceAs (Decidable (True))
  | some c => have := c.decFits; inferInstanceAs (Decidable (c.Fits))
def Expr.decFitss : (x : List Expr) → Decidable (Expr.Fitss x)
  | [] => inferInstanceAs (Decidable (True))
  | e :: es => have := Expr.decFitss es; have := e.decFits; inferInstanceAs (Decidable (e.Fits ∧ Expr.Fitss es))
def Expr.decFitsWhens : (x : List (Expr × Expr)) → Decidable (Expr.FitsWhens x)
  | [] => inferInstanceAs (Decidable (True))
  | (c, v) :: bs => have := Expr.decFitsWhens bs; have := c.decFits; have := v.decFits; inferInstanceAs (Decidable (c.Fits ∧ v.Fits ∧ Expr.FitsWhens bs))
def Expr.decFitsLists : (x : List (List Expr)) → Decidable (Expr.FitsLists x)
  | [] => inferInstanceAs (Decidable (True))
  | vs :: gs => have := Expr.decFitss vs; have := Expr.decFitsLists gs; inferInstanceAs (Decidable (Expr.Fitss vs ∧ Expr.OneFits vs ∧ Expr.FitsLists gs))
def Ord.decFits : (x : Ord) → Decidable (Ord.Fits x)
  | .mk v _ _ => have := v.decFits; inferInstanceAs (Decidable (v.Fits))
def Ord.decFitss : (x : List Ord) → Decidable (Ord.Fitss x)
  | [] => inferInstanceAs (Decidable (True))
  | x :: xs => have := Ord.decFitss xs; have := x.decFits; inferInstanceAs (Decidable (x.Fits ∧ Ord.Fitss xs))
def Bound.decFits : (x : Bound) → Decidable (Bound.Fits x)
  | .bounded _ e => have := e.decFits; inferInstanceAs (Decidable (e.Fits))
  | .unbounded _ => inferInstanceAs (Decidable (True))
  | .current => inferInstanceAs (Decidable (True))
def Win.decFits : (x : Win) → Decidable (Win.Fits x)
  | .mk p ob ps _ st en => have := Ord.decFitss ob; have := Expr.decFitss ps; have := st.decFits; have := en.decFits; inferInstanceAs (Decidable (IfAny FreeWord (truthy p) ∧ Ord.Fitss ob ∧ Expr.Fitss ps ∧ st.Fits ∧ en.Fits))
def Grp.decFits : (x : Grp) → Decidable (Grp.Fits x)
  | .set vs => have := Expr.decFitss vs; inferInstanceAs (Decidable (Expr.Fitss vs ∧ Expr.OneFits vs))
  | .sets gs => have := Expr.decFitsLists gs; inferInstanceAs (Decidable (gs ≠ [] ∧ Expr.FitsLists gs))
  | .cube vs => have := Expr.decFitss vs; inferInstanceAs (Decidable (Expr.Fitss vs))
  | .rollup vs => have := Expr.decFitss vs; inferInstanceAs (Decidable (Expr.Fitss vs))
def Grp.decFitss : (x : List Grp) → Decidable (Grp.Fitss x)
  | [] => inferInstanceAs (Decidable (True))
  | g :: gs => have := Grp.decFitss gs; have := g.decFits; inferInstanceAs (Decidable (g.Fits ∧ Grp.Fitss gs))
def GroupBy.decFits : (x : GroupBy) → Decidable (GroupBy.Fits x)
  | .mk gs _ => have := Grp.decFitss gs; inferInstanceAs (Decidable (Grp.Fitss gs))
def Query.decFits : (x : Query) → Decidable (Query.Fits x)
  | .mk b _ _ ob w => have := Ord.decFitss ob; have := Named.decFitss w; have := b.decFits; inferInstanceAs (Decidable (b.Fits ∧ Ord.Fitss ob ∧ Named.Fitss w))
def QBody.decFits : (x : QBody) → Decidable (QBody.Fits x)
  | .select items fr wh gb hv _ wins => have := Expr.decFitss items; have := Rel.decFitsOpt fr; have := Expr.decFitsOpt wh; have := GroupBy.decFitsOpt gb; have := Expr.decFitsOpt hv; have := Win.decFitsNamed wins; inferInstanceAs (Decidable (Expr.Fitss items ∧ Rel.FitsOpt fr ∧ Expr.FitsOpt wh ∧ GroupBy.FitsOpt gb ∧ Expr.FitsOpt hv ∧ Win.FitsNamed wins ∧ (wins.map Prod.fst).Nodup))
  | .set _ _ _ _ => inferInstanceAs (Decidable (False))
  | .table t => inferInstanceAs (Decidable (TableFits t))
  | .values es => have := Expr.decFitss es; inferInstanceAs (Decidable (Expr.Fitss es))
def Win.decFitsNamed : (x : List (Str × Win)) → Decidable (Win.FitsNamed x)
  | [] => inferInstanceAs (Decidable (True))
  | (n, w) :: ws => have := Win.decFitsNamed ws; have := w.decFits; inferInstanceAs (Decidable (FreeWord n ∧ w.Fits ∧ Win.FitsNamed ws))
def Named.decFits : (x : Named) → Decidable (Named.Fits x)
  | .mk r _ cols => have := r.decFits; inferInstanceAs (Decidable (r.Fits ∧ 3 ≤ relLevel r ∧ ∀ n ∈ cols, FreeWord n))
def Named.decFitsWith : (x : Named) → Decidable (Named.FitsWith x)
  | .mk r _ _ => have := r.decFits; inferInstanceAs (Decidable (r.Fits))
def Named.decFitss : (x : List Named) → Decidable (Named.Fitss x)
  | [] => inferInstanceAs (Decidable (True))
  | n :: ns => have := Named.decFitss ns; have := n.decFitsWith; inferInstanceAs (Decidable (n.FitsWith ∧ Named.Fitss ns))
def Rel.decFits : (x : Rel) → Decidable (Rel.Fits x)
  | .table t => inferInstanceAs (Decidable (TableFits t))
  | .query q => have := q.decFits; inferInstanceAs (Decidable (q.Fits))
  | .aliased n => have := n.decFits; inferInstanceAs (Decidable (n.Fits))
  | .join l r _ _ cr => have := Crit.decFitsOpt cr; have := l.decFits; have := r.decFits; inferInstanceAs (Decidable (l.Fits ∧ r.Fits ∧ Crit.FitsOpt cr ∧ (cr.isSome = false → 1 ≤ relLevel r)))
  | .unnest as _ => have := Expr.decFitss as; inferInstanceAs (Decidable (Expr.Fitss as ∧ as ≠ []))
  | .lateral q => have := q.decFits; inferInstanceAs (Decidable (q.Fits))
  | .sample r _ p => have := r.decFits; have := p.decFits; inferInstanceAs (Decidable (r.Fits ∧ p.Fits ∧ relLevel r ≠ 1))
def Crit.decFits : (x : Crit) → Decidable (Crit.Fits x)
  | .using cols => inferInstanceAs (Decidable (∀ n ∈ cols, FreeWord n))
  | .on e => have := e.decFits; inferInstanceAs (Decidable (e.Fits))
end

instance (e : Expr) (item : Bool) : Decidable (e.Tidy item) := e.decTidy item
instance (e : Expr) : Decidable e.Body := e.decBody
instance (e : Expr) : Decidable e.Fits := e.decFits
instance (q : Query) : Decidable q.Tidy := q.decTidy
instance (q : Query) : Decidable q.Fits := q.decFits
instance (r : Rel) : Decidable r.Tidy := r.decTidy
instance (r : Rel) : Decidable r.Fits := r.decFits
instance (w : Win) : Decidable w.Tidy := w.decTidy
instance (w : Win) : Decidable w.Fits := w.decFits
instance (g : GroupBy) : Decidable g.Tidy := g.decTidy
instance (g : GroupBy) : Decidable g.Fits := g.decFits

end Treeno
