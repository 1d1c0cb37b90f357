import Verif.Tree
import Verif.Spec.Children
import Verif.Lemmas.TextInj
import Verif.Lemmas.ObjProper
import Verif.Lemmas.Types
/-! # The displayed tree as a total function, and what it shows of the attributes -/
namespace Treeno

def PTree.kids : PTree → List PTree
  | .leaf _ => []
  | .node _ ks => ks
def PTree.label : PTree → Str
  | .leaf s => s
  | .node l _ => l
def PTree.isNode : PTree → Bool
  | .leaf _ => false
  | .node _ _ => true

mutual
def Obj.tree : Obj → PTree
  | .list l => .node (c% "<list>") (Obj.trees l)
  | .dict d => .node (c% "<dict>") (Obj.dictTrees d)
  | .inst .dataType as => .leaf (Obj.inst .dataType as).pyStr
  | .inst c as => .node c.name (Obj.attrTrees as)
  | o => .leaf o.pyStr
def Obj.trees : List Obj → List PTree
  | [] => []
  | x :: r => x.tree :: Obj.trees r
def Obj.dictTrees : List (Str × Obj) → List PTree
  | [] => []
  | (k, v) :: r => .node k v.tree.kids :: Obj.dictTrees r
def Obj.attrTrees : List (Str × Obj) → List PTree
  | [] => []
  | (k, v) :: r => if shouldSkip k v then Obj.attrTrees r else .node k [v.tree] :: Obj.attrTrees r
end

theorem tree_inst {c : Cls} {as : List (Str × Obj)} (h : c ≠ .dataType) : (Obj.inst c as).tree = .node c.name (Obj.attrTrees as) := by
  cases c <;> first | rfl | exact absurd rfl h
theorem treeify_inst {c : Cls} {as : List (Str × Obj)} (h : c ≠ .dataType) :
    (Obj.inst c as).treeify = (do let ks ← Obj.treeifyAttrs as; .ok (.node c.name ks)) := by
  cases c <;> first | rfl | exact absurd rfl h

mutual
/-- The values of dicts are shown as nodes, and attributes that are not shown hold no nodes. -/
def Obj.DictsOk : Obj → Prop
  | .list l => Obj.DictsOkList l
  | .dict d => Obj.DictsOkDict d
  | .inst c as => c = .dataType ∨ Obj.DictsOkAttrs as
  | _ => True
def Obj.DictsOkList : List Obj → Prop
  | [] => True
  | x :: r => x.DictsOk ∧ Obj.DictsOkList r
def Obj.DictsOkDict : List (Str × Obj) → Prop
  | [] => True
  | (_, v) :: r => (v.tree.isNode = true ∧ v.tree.label = c% "Window" ∧ v.DictsOk) ∧ Obj.DictsOkDict r
def Obj.DictsOkAttrs : List (Str × Obj) → Prop
  | [] => True
  | (k, v) :: r => ((hiddenKey k = false ∨ Spec.held v = []) ∧ v.DictsOk) ∧ Obj.DictsOkAttrs r
end

mutual
theorem treeify_tree : ∀ (o : Obj), o.DictsOk → o.treeify = .ok o.tree
  | .none, _ => rfl
  | .scalar _, _ => rfl
  | .enum _ _, _ => rfl
  | .rel _, _ => rfl
  | .list l, h => by
    show (do let ks ← Obj.treeifyList l; .ok (PTree.node (c% "<list>") ks)) = _
    rw [treeifyList_tree l h]; rfl
  | .dict d, h => by
    show (do let ks ← Obj.treeifyDict d; .ok (PTree.node (c% "<dict>") ks)) = _
    rw [treeifyDict_tree d h]; rfl
  | .inst c as, h => by
    by_cases hc : c = .dataType
    · subst hc; rfl
    · rcases h with h | h
      · exact absurd h hc
      · rw [treeify_inst hc, tree_inst hc, treeifyAttrs_tree as h]; rfl
theorem treeifyList_tree : ∀ (l : List Obj), Obj.DictsOkList l → Obj.treeifyList l = .ok (Obj.trees l)
  | [], _ => rfl
  | x :: r, h => by
    show (do let t ← x.treeify; let ts ← Obj.treeifyList r; .ok (t :: ts)) = _
    rw [treeify_tree x h.1, treeifyList_tree r h.2]; rfl
theorem treeifyDict_tree : ∀ (d : List (Str × Obj)), Obj.DictsOkDict d → Obj.treeifyDict d = .ok (Obj.dictTrees d)
  | [], _ => rfl
  | (k, v) :: r, h => by
    show (do let t ← v.treeify; let t ← t.relabel k; let ts ← Obj.treeifyDict r; .ok (t :: ts)) = _
    rw [treeify_tree v h.1.2.2, treeifyDict_tree r h.2]
    show (do let t ← v.tree.relabel k; Except.ok (t :: Obj.dictTrees r)) = .ok (.node k v.tree.kids :: Obj.dictTrees r)
    have hn := h.1.1
    cases hv : v.tree with
    | leaf s => rw [hv] at hn; exact nomatch hn
    | node l ks => rfl
theorem treeifyAttrs_tree : ∀ (as : List (Str × Obj)), Obj.DictsOkAttrs as → Obj.treeifyAttrs as = .ok (Obj.attrTrees as)
  | [], _ => rfl
  | (k, v) :: r, h => by
    show (if shouldSkip k v then Obj.treeifyAttrs r else do let t ← v.treeify; let ts ← Obj.treeifyAttrs r; .ok (.node k [t] :: ts)) = .ok (if shouldSkip k v then Obj.attrTrees r else .node k [v.tree] :: Obj.attrTrees r)
    cases hs : shouldSkip k v with
    | true =>
      show Obj.treeifyAttrs r = .ok (Obj.attrTrees r)
      exact treeifyAttrs_tree r h.2
    | false =>
      show (do let t ← v.treeify; let ts ← Obj.treeifyAttrs r; .ok (.node k [t] :: ts)) = Except.ok (.node k [v.tree] :: Obj.attrTrees r)
      rw [treeify_tree v h.1.2, treeifyAttrs_tree r h.2]; rfl
end

/-! ## What is shown of an attribute -/

def shown (k : Str) (v : Obj) : Option PTree := if shouldSkip k v then none else some v.tree
def shownAt (k : Str) (as : List (Str × Obj)) : Option PTree := (dget k as).bind (shown k)
def kidAt (k : Str) : List PTree → Option PTree
  | [] => none
  | .node l [t] :: r => if l == k then some t else kidAt k r
  | _ :: r => kidAt k r

theorem kidAt_attrs (k : Str) : ∀ as : List (Str × Obj), (as.map Prod.fst).Nodup → kidAt k (Obj.attrTrees as) = shownAt k as
  | [], _ => rfl
  | (k', v) :: r, h => by
    obtain ⟨hn, hr⟩ := List.nodup_cons.mp h
    have ih := kidAt_attrs k r hr
    show kidAt k (if shouldSkip k' v then Obj.attrTrees r else .node k' [v.tree] :: Obj.attrTrees r) =
      (if k' == k then some v else dget k r).bind (shown k)
    cases hk : k' == k with
    | true =>
      have e := beq_iff_eq.mp hk
      subst e
      show _ = shown k' v
      unfold shown
      cases hs : shouldSkip k' v with
      | true =>
        show kidAt k' (Obj.attrTrees r) = none
        rw [ih, shownAt, dget_notin _ _ hn]; rfl
      | false =>
        show (if k' == k' then some v.tree else _) = some v.tree
        rw [if_pos hk]
    | false =>
      show _ = (dget k r).bind (shown k)
      cases hs : shouldSkip k' v with
      | true => exact ih
      | false =>
        show (if k' == k then some v.tree else kidAt k (Obj.attrTrees r)) = _
        rw [if_neg (by rw [hk]; exact Bool.noConfusion)]; exact ih

theorem shownAt_of {c c' : Cls} {as as' : List (Str × Obj)} (h : (Obj.inst c as).tree = (Obj.inst c' as').tree)
    (hc : c ≠ .dataType) (hc' : c' ≠ .dataType) (hn : (as.map Prod.fst).Nodup) (hn' : (as'.map Prod.fst).Nodup) (k : Str) :
    shownAt k as = shownAt k as' := by
  rw [tree_inst hc, tree_inst hc'] at h
  rw [← kidAt_attrs k as hn, ← kidAt_attrs k as' hn', (PTree.node.inj h).2]

theorem name_of {c c' : Cls} {as as' : List (Str × Obj)} (h : (Obj.inst c as).tree = (Obj.inst c' as').tree)
    (hc : c ≠ .dataType) (hc' : c' ≠ .dataType) : c.name = c'.name := by
  rw [tree_inst hc, tree_inst hc'] at h
  exact (PTree.node.inj h).1

/-! ## Names of classes -/

def Fn.all : List Fn := [.concat, .if_, .coalesce, .nullif, .try_, .power, .date, .lastDayOfMonth, .fromIso8601Timestamp,
  .fromIso8601TimestampNanos, .fromIso8601Date, .atTimezone, .withTimezone, .fromUnixtime, .fromUnixtimeNanos, .now,
  .toIso8601, .toMilliseconds, .toUnixtime, .dateTrunc, .dateAdd, .dateDiff, .parseDuration, .humanReadableSeconds, .chr,
  .codepoint, .hammingDistance, .length, .levenshteinDistance, .lower, .lpad, .ltrim, .luhnCheck, .replace, .reverse,
  .rpad, .rtrim, .soundex, .toUtf8, .fromUtf8]
def Agg.all : List Agg := [.sum, .arbitrary, .arrayAgg, .avg, .boolAnd, .boolOr, .checksum, .count, .countIf, .every,
  .geometricMean, .max, .maxBy, .min, .minBy, .bitwiseAndAgg, .bitwiseOrAgg, .histogram, .mapAgg, .mapUnion, .multimapAgg,
  .approxDistinct, .approxMostFrequent, .approxPercentile, .approxSet, .merge, .numericHistogram, .qdigestAgg, .tdigestAgg,
  .corr, .covarPop, .covarSamp, .kurtosis, .regrIntercept, .regrSlope, .skewness, .stddev, .stddevPop, .stddevSamp,
  .variance, .varPop, .varSamp]
def BinOp.all : List BinOp := [.add, .sub, .mul, .div, .mod, .eq, .ne, .gt, .ge, .lt, .le, .and, .or, .distinct]
def Cls.all : List Cls := [.literal, .field, .aliasedValue, .star, .aliasedStar, .variable, .lambda, .un .pos, .un .neg,
  .not, .isNull, .between, .array, .inQuery, .inList, .like, .typeConstructor, .rowConstructor, .interval, .cast true,
  .cast false, .subscript, .case, .when, .else_, .listAgg, .overflowFiller, .curTime .currentTime, .curTime .currentTimestamp,
  .curTime .localTime, .curTime .localTimestamp, .session .currentDate, .session .currentUser, .session .currentCatalog,
  .session .currentSchema, .session .currentPath, .normalize, .orderTerm, .boundedFrameBound, .unboundedFrameBound,
  .currentFrameBound, .window, .groupingSet, .groupingSetList, .cube, .rollup, .groupBy, .selectQuery, .setQuery .intersect,
  .setQuery .except, .setQuery .union, .tableQuery, .valuesQuery, .table, .aliasedRelation, .join, .joinConfig,
  .joinUsingCriteria, .joinOnCriteria, .unnest, .lateral, .tableSample, .dataType, .schema, .schemaField] ++
  BinOp.all.map .bin ++ Fn.all.map .fn ++ Agg.all.map .agg
def clsNamed (s : Str) : Option Cls := Cls.all.find? (fun c => c.name == s)
theorem clsNamed_name (c : Cls) : clsNamed c.name = some c := by
  cases c
  case un op => cases op <;> decide +kernel
  case bin op => cases op <;> decide +kernel
  case cast b => cases b <;> decide +kernel
  case fn f => cases f <;> decide +kernel
  case agg f => cases f <;> decide +kernel
  case curTime f => cases f <;> decide +kernel
  case session f => cases f <;> decide +kernel
  case setQuery k => cases k <;> decide +kernel
  all_goals decide +kernel
theorem Cls_name_inj {c c' : Cls} (h : c.name = c'.name) : c = c' := by
  have := clsNamed_name c
  rw [h, clsNamed_name] at this
  exact (Option.some.inj this).symm

/-! ## Leaves -/

/-- The text of a leaf. -/
def leafText : Option PTree → Option Str
  | some (.leaf s) => some s
  | _ => none

theorem shown_leaf {k : Str} (hk : hiddenKey k = false) {v : Obj} (hv : ∀ k, shouldSkip k v = hiddenKey k) (ht : v.tree = .leaf v.pyStr) :
    shown k v = some (.leaf v.pyStr) := by
  unfold shown; rw [hv, hk, ht]; rfl
theorem shown_scalar {k : Str} (hk : hiddenKey k = false) (s : Scalar) : shown k (.scalar s) = some (.leaf s.pyStr) := by
  have : shouldSkip k (.scalar s) = false := by unfold shouldSkip; rw [hk]; rfl
  unfold shown; rw [this]; rfl
theorem shown_none {k : Str} : shown k .none = none := by
  have : shouldSkip k .none = true := by unfold shouldSkip; exact Bool.or_true _
  unfold shown; rw [this]; rfl
theorem sstr {k : Str} (hk : hiddenKey k = false) {a b : Str} (h : shown k (.str a) = shown k (.str b)) : a = b := by
  rw [shown_scalar hk, shown_scalar hk] at h
  exact PTree.leaf.inj (Option.some.inj h)
theorem sint {k : Str} (hk : hiddenKey k = false) {a b : Int} (h : shown k (.int a) = shown k (.int b)) : a = b := by
  rw [shown_scalar hk, shown_scalar hk] at h
  exact intStr_inj (PTree.leaf.inj (Option.some.inj h))
theorem sbool {k : Str} (hk : hiddenKey k = false) {a b : Bool} (h : shown k (.bool a) = shown k (.bool b)) : a = b := by
  rw [shown_scalar hk, shown_scalar hk] at h
  have := PTree.leaf.inj (Option.some.inj h)
  cases a <;> cases b <;> first | rfl | exact absurd this (by decide)
theorem soptStr {k : Str} (hk : hiddenKey k = false) {a b : Option Str} (h : shown k (.optStr a) = shown k (.optStr b)) : a = b := by
  cases a <;> cases b
  · rfl
  · rw [Obj.optStr, Obj.optStr, shown_none, shown_scalar hk] at h; exact nomatch h
  · rw [Obj.optStr, Obj.optStr, shown_none, shown_scalar hk] at h; exact nomatch h
  · rw [sstr hk h]
theorem soptInt {k : Str} (hk : hiddenKey k = false) {a b : Option Int} (h : shown k (.optInt a) = shown k (.optInt b)) : a = b := by
  cases a <;> cases b
  · rfl
  · rw [Obj.optInt, Obj.optInt, shown_none, shown_scalar hk] at h; exact nomatch h
  · rw [Obj.optInt, Obj.optInt, shown_none, shown_scalar hk] at h; exact nomatch h
  · rw [sint hk h]

/-! ## Lists -/

theorem shown_list {k : Str} (hk : hiddenKey k = false) (l : List Obj) :
    shown k (.list l) = if l.isEmpty then none else some (.node (c% "<list>") (Obj.trees l)) := by
  have : shouldSkip k (.list l) = l.isEmpty := by unfold shouldSkip; rw [hk]; rfl
  unfold shown; rw [this]; rfl
theorem slist {k : Str} (hk : hiddenKey k = false) {a b : List Obj} (h : shown k (.list a) = shown k (.list b)) : Obj.trees a = Obj.trees b := by
  rw [shown_list hk, shown_list hk] at h
  cases a <;> cases b
  · rfl
  · exact nomatch h
  · exact nomatch h
  · exact (PTree.node.inj (Option.some.inj h)).2
theorem soptList {k : Str} (hk : hiddenKey k = false) {a b : List Obj} (h : shown k (.optList a) = shown k (.optList b)) : Obj.trees a = Obj.trees b := by
  have e : ∀ l : List Obj, shown k (.optList l) = shown k (.list l) := fun l => by
    cases l with
    | nil => rw [shown_list hk, Obj.optList, shown_none]; rfl
    | cons _ _ => rfl
  rw [e, e] at h
  exact slist hk h
theorem swith {k : Str} (hk : hiddenKey k = false) {a b : List Obj} (h : shown k (withObj a) = shown k (withObj b)) : Obj.trees a = Obj.trees b := by
  have e : ∀ l : List Obj, shown k (withObj l) = shown k (.list l) := fun l => by
    cases l with
    | nil =>
      have : shouldSkip k (.dict []) = true := by unfold shouldSkip; exact Bool.or_true _
      rw [shown_list hk, withObj, shown, this]; rfl
    | cons _ _ => rfl
  rw [e, e] at h
  exact slist hk h
theorem swindow {k : Str} (hk : hiddenKey k = false) {a b : List (Str × Obj)} (h : shown k (windowObj a) = shown k (windowObj b)) :
    Obj.dictTrees a = Obj.dictTrees b := by
  have e : ∀ l : List (Str × Obj), shown k (windowObj l) = if l.isEmpty then none else some (.node (c% "<dict>") (Obj.dictTrees l)) := fun l => by
    cases l with
    | nil => rw [windowObj, shown_none]; rfl
    | cons x r =>
      have : shouldSkip k (.dict (x :: r)) = false := by unfold shouldSkip; rw [hk]; rfl
      rw [windowObj, shown, this]; rfl
  rw [e, e] at h
  cases a <;> cases b
  · rfl
  · exact nomatch h
  · exact nomatch h
  · exact (PTree.node.inj (Option.some.inj h)).2
theorem strees {a b : List Str} (h : Obj.trees (a.map .str) = Obj.trees (b.map .str)) : a = b := by
  induction a generalizing b with
  | nil => cases b with
    | nil => rfl
    | cons y s => exact nomatch h
  | cons x r ih => cases b with
    | nil => exact nomatch h
    | cons y s =>
      have h' := List.cons.inj (show PTree.leaf x :: Obj.trees (r.map .str) = PTree.leaf y :: Obj.trees (s.map .str) from h)
      rw [PTree.leaf.inj h'.1, ih h'.2]
theorem sstrs {k : Str} (hk : hiddenKey k = false) {a b : List Str} (h : shown k (.list (a.map .str)) = shown k (.list (b.map .str))) : a = b :=
  strees (slist hk h)
theorem snames {k : Str} (hk : hiddenKey k = false) {a b : List Str} (h : shown k (.names a) = shown k (.names b)) : a = b :=
  strees (soptList hk h)
theorem varTree {x y : Str} (h : (varObj x).tree = (varObj y).tree) : x = y :=
  sstr (k := c% "name") rfl (shownAt_of h (by decide) (by decide) (by dsimp only [List.map, typeAttr]; decide) (by dsimp only [List.map, typeAttr]; decide) (c% "name"))
theorem svars {k : Str} (hk : hiddenKey k = false) {a b : List Str} (h : shown k (.list (a.map varObj)) = shown k (.list (b.map varObj))) : a = b := by
  replace h := slist hk h
  clear hk
  induction a generalizing b with
  | nil => cases b with
    | nil => rfl
    | cons y s => exact nomatch h
  | cons x r ih => cases b with
    | nil => exact nomatch h
    | cons y s =>
      have h' := List.cons.inj (show (varObj x).tree :: Obj.trees (r.map varObj) = (varObj y).tree :: Obj.trees (s.map varObj) from h)
      rw [varTree h'.1, ih h'.2]

/-! ## Enum members -/

theorem senum2 {k : Str} (hk : hiddenKey k = false) {c y n : Str} (hy : c ++ c% "." ++ y ≠ c ++ c% "." ++ n) (hd : enumDefault c ≠ some y) {a b : Bool}
    (h : shown k (.enum2 c y n a) = shown k (.enum2 c y n b)) : a = b := by
  have ey : shown k (.enum c y) = some (.leaf (c ++ c% "." ++ y)) := by
    have : shouldSkip k (.enum c y) = false := by unfold shouldSkip; rw [hk]; simp [hd]
    unfold shown; rw [this]; rfl
  have en : shown k (.enum c n) = none ∨ shown k (.enum c n) = some (.leaf (c ++ c% "." ++ n)) := by
    unfold shown; split
    · exact .inl rfl
    · exact .inr rfl
  have hne : shown k (.enum c y) ≠ shown k (.enum c n) := fun e => by
    rw [ey] at e
    rcases en with en | en <;> rw [en] at e
    · exact nomatch e
    · exact hy (PTree.leaf.inj (Option.some.inj e))
  cases a <;> cases b
  · rfl
  · exact absurd h.symm hne
  · exact absurd h hne
  · rfl
theorem enumText {k : Str} (hk : hiddenKey k = false) {v w : Obj} (h : shown k v = shown k w) {s t : Option Str}
    (hv : ∀ k, hiddenKey k = false → leafText (shown k v) = s) (hw : ∀ k, hiddenKey k = false → leafText (shown k w) = t) : s = t := by
  rw [← hv k hk, ← hw k hk, h]
theorem shown_enum {k : Str} (hk : hiddenKey k = false) (c n : Str) :
    leafText (shown k (.enum c n)) = if enumDefault c == some n then none else some (c ++ c% "." ++ n) := by
  have : shouldSkip k (.enum c n) = (enumDefault c == some n) := by unfold shouldSkip; rw [hk]; rfl
  unfold shown; rw [this]
  split <;> rfl
theorem senum {k : Str} (hk : hiddenKey k = false) {c n c' n' : Str} (h : shown k (.enum c n) = shown k (.enum c' n')) :
    (if enumDefault c == some n then none else some (c ++ c% "." ++ n)) = (if enumDefault c' == some n' then none else some (c' ++ c% "." ++ n')) := by
  rw [← shown_enum hk, ← shown_enum hk, h]
theorem sJoinType {k : Str} (hk : hiddenKey k = false) {a b : JoinType} (h : shown k a.obj = shown k b.obj) : a = b := by
  cases a <;> cases b <;> first | rfl | exact absurd (senum hk h) (by decide)
theorem sSampleType {k : Str} (hk : hiddenKey k = false) {a b : SampleType} (h : shown k a.obj = shown k b.obj) : a = b := by
  cases a <;> cases b <;> first | rfl | exact absurd (senum hk h) (by decide)
theorem sFrameType {k : Str} (hk : hiddenKey k = false) {a b : FrameType} (h : shown k a.obj = shown k b.obj) : a = b := by
  cases a <;> cases b <;> first | rfl | exact absurd (senum hk h) (by decide)
theorem sBoundType {k : Str} (hk : hiddenKey k = false) {a b : BoundType} (h : shown k a.obj = shown k b.obj) : a = b := by
  cases a <;> cases b <;> first | rfl | exact absurd (senum hk h) (by decide)
theorem sForm {k : Str} (hk : hiddenKey k = false) {a b : Option NormalForm} (h : shown k (.optForm a) = shown k (.optForm b)) : a = b := by
  have e : ∀ f : NormalForm, shown k f.obj ≠ none := fun f => by
    cases f <;> (intro q; have := congrArg leafText q; rw [NormalForm.obj, shown_enum hk] at this; exact absurd this (by decide))
  cases a with
  | none => cases b with
    | none => rfl
    | some b => exact absurd (h.symm.trans shown_none) (e b)
  | some a => cases b with
    | none => exact absurd (h.trans shown_none) (e a)
    | some b => cases a <;> cases b <;> first | rfl | exact absurd (senum hk h) (by decide)

/-! ## Nodes -/

theorem shown_inst {k : Str} (hk : hiddenKey k = false) (c : Cls) (as : List (Str × Obj)) : shown k (.inst c as) = some (Obj.inst c as).tree := by
  have : shouldSkip k (.inst c as) = false := by unfold shouldSkip; rw [hk]; rfl
  unfold shown; rw [this]; rfl
theorem sfiller {k : Str} (hk : hiddenKey k = false) {a b : Option (Str × Bool)} (h : shown k (fillerObj a) = shown k (fillerObj b)) : a = b := by
  cases a with
  | none => cases b with
    | none => rfl
    | some b => rw [fillerObj, fillerObj, shown_none, shown_inst hk] at h; exact nomatch h
  | some a => cases b with
    | none => rw [fillerObj, fillerObj, shown_none, shown_inst hk] at h; exact nomatch h
    | some b =>
      obtain ⟨a1, a2⟩ := a
      obtain ⟨b1, b2⟩ := b
      rw [fillerObj, fillerObj, shown_inst hk, shown_inst hk] at h
      have K := shownAt_of (Option.some.inj h) (by decide) (by decide) (by dsimp only [List.map]; decide) (by dsimp only [List.map]; decide)
      have h1 : a2 = b2 := senum2 (k := c% "count_indication") (c := c% "CountIndication") (y := c% "WITH_COUNT") (n := c% "WITHOUT_COUNT") rfl (by decide) (by decide) (K (c% "count_indication"))
      have h2 : a1 = b1 := sstr (k := c% "filler") rfl (K (c% "filler"))
      rw [h1, h2]

/-! ### Types -/

mutual
theorem Ty_pyStr : ∀ t : Ty, t.obj.pyStr = t.sql
  | .simple s => by cases s <;> rfl
  | .decimal _ _ => by
    show _ ++ _ = _
    simp [Ty.sql, typeFields, Obj.pyStrDict, Obj.pyStr, Scalar.pyStr, dget, join]
  | .varchar none => rfl
  | .varchar (some n) => rfl
  | .char _ => rfl
  | .time none tz => by cases tz <;> rfl
  | .time (some _) tz => by cases tz <;> rfl
  | .timestamp none tz => by cases tz <;> rfl
  | .timestamp (some _) tz => by cases tz <;> rfl
  | .interval k => by cases k <;> rfl
  | .array t => by
    show c% "ARRAY" ++ c% "(" ++ t.obj.pyStr ++ c% ")" = _
    rw [Ty_pyStr t]; rfl
  | .map a b => by
    show c% "MAP" ++ c% "(" ++ (a.obj.pyStr ++ c% "," ++ b.obj.pyStr) ++ c% ")" = _
    rw [Ty_pyStr a, Ty_pyStr b]; simp [Ty.sql]
  | .row l => by
    show c% "ROW" ++ c% "(" ++ join (c% ",") (Obj.pyStrList (Ty.objs l)) ++ c% ")" = _
    rw [Tys_pyStr l]; rfl
  | .qdigest t => by
    show c% "QDIGEST" ++ c% "(" ++ t.obj.pyStr ++ c% ")" = _
    rw [Ty_pyStr t]; rfl
theorem Tys_pyStr : ∀ l : List Ty, Obj.pyStrList (Ty.objs l) = Ty.sqlList l
  | [] => rfl
  | t :: r => by
    show t.obj.pyStr :: Obj.pyStrList (Ty.objs r) = _
    rw [Ty_pyStr t, Tys_pyStr r]; rfl
end
theorem Ty_tree (t : Ty) : t.obj.tree = .leaf t.sql := by
  rw [← Ty_pyStr]; cases t <;> rfl
theorem shown_Ty {k : Str} (hk : hiddenKey k = false) (t : Ty) : shown k t.obj = some (.leaf t.sql) := by
  rw [← Ty_tree]
  rw [Ty_name t]; exact shown_inst hk _ _
theorem sTy {k : Str} (hk : hiddenKey k = false) {a b : Ty} (h : shown k a.obj = shown k b.obj) : a = b := by
  rw [shown_Ty hk, shown_Ty hk] at h
  exact Ty_sql_inj (PTree.leaf.inj (Option.some.inj h))

end Treeno
