import Verif.Props.NodeProps
import Verif.Props.ConversionProps
import Verif.Lemmas.CheckEqs

/-!
# The types of operator nodes: property C63, and the depth of array concatenations (C42)
-/
set_option autoImplicit false
namespace Treeno.Props
open Treeno

/-- The data types of points in time, by name and whatever their parameters. -/
def pointInTime (t : Ty) : Prop := t.typeName = c% "DATE" ∨ t.typeName = c% "TIMESTAMP"

/-- Both operands name a date and time, or both a time of day. -/
def datetimes (a b : Ty) : Prop :=
  (pointInTime a ∧ pointInTime b) ∨ (a.typeName = c% "TIME" ∧ b.typeName = c% "TIME")

theorem isInstant_iff (t : Ty) : t.isInstant = true ↔ pointInTime t := by
  cases t with
  | simple s => cases s <;> simp [Ty.isInstant, pointInTime, Ty.typeName] <;> decide
  | interval i => cases i <;> simp [Ty.isInstant, pointInTime, Ty.typeName]
  | _ => simp [Ty.isInstant, pointInTime, Ty.typeName]

theorem isTime_iff (t : Ty) : t.isTime = true ↔ t.typeName = c% "TIME" := by
  cases t with
  | simple s => cases s <;> simp [Ty.isTime, Ty.typeName] <;> decide
  | interval i => cases i <;> simp [Ty.isTime, Ty.typeName]
  | _ => simp [Ty.isTime, Ty.typeName]

/-! ## C63: operators -/

/-- Operators that compute a value of an operand's kind; the others are tests. -/
def arithmetic : BinOp → Bool
  | .add | .sub | .mul | .div | .mod => true
  | _ => false

/-- **C63.** A comparison or logical connective can be built from any operands and is BOOLEAN. -/
theorem C63_tests (op : BinOp) (hop : arithmetic op = false) (l r : Expr) (t : Ty) :
    (Expr.bin op l r).check = .ok t ↔
      t.typeName = c% "BOOLEAN" ∧ (∃ a, l.check = .ok a) ∧ ∃ b, r.check = .ok b := by
  have hb : ∀ a b, binType op a b = .ok .boolean := by
    intro a b; cases op <;> first | rfl | cases hop
  have ht : t.typeName = c% "BOOLEAN" ↔ t = .boolean := by
    cases t with
    | simple s => cases s <;> simp [Ty.typeName, Ty.boolean] <;> decide
    | interval i => cases i <;> simp [Ty.typeName, Ty.boolean]
    | _ => simp [Ty.typeName, Ty.boolean]
  rw [Expr_check_bin, ht]
  constructor
  · intro h
    obtain ⟨a, ha, h⟩ := bind_ok h
    obtain ⟨b, hb', h⟩ := bind_ok h
    rw [hb] at h
    cases h
    exact ⟨rfl, ⟨a, ha⟩, b, hb'⟩
  · rintro ⟨rfl, ⟨a, ha⟩, b, hb'⟩
    simp [ha, hb', bind, Except.bind, hb]

example : (Expr.bin .lt (.lit (some (.int 1)) (.simple .integer))
    (.field (c% "x") none .unknown)).check = .ok .boolean := rfl

/-- **C63.** So are the predicates: NOT, IS NULL, BETWEEN, IN and LIKE are BOOLEAN whatever they
test. -/
theorem C63_predicates (v l u : Expr) (es : List Expr) (q : Query) (esc : Option Expr) (t : Ty)
    (h : (Expr.not v).check = .ok t ∨ (Expr.isNull v).check = .ok t ∨
      (Expr.between v l u).check = .ok t ∨ (Expr.inList v es).check = .ok t ∨
      (Expr.inQuery v q).check = .ok t ∨ (Expr.like v l esc).check = .ok t) :
    t = .simple .boolean := by
  rcases h with h | h | h | h | h | h
  · rw [Expr_check_not] at h
    obtain ⟨_, -, h⟩ := bind_ok h; cases h; rfl
  · rw [Expr_check_isNull] at h
    obtain ⟨_, -, h⟩ := bind_ok h; cases h; rfl
  · rw [Expr_check_between] at h
    obtain ⟨_, -, h⟩ := bind_ok h
    obtain ⟨_, -, h⟩ := bind_ok h
    obtain ⟨_, -, h⟩ := bind_ok h; cases h; rfl
  · rw [Expr_check_inList] at h
    obtain ⟨_, -, h⟩ := bind_ok h
    obtain ⟨_, -, h⟩ := bind_ok h; cases h; rfl
  · rw [Expr_check_inQuery] at h
    obtain ⟨_, -, h⟩ := bind_ok h
    obtain ⟨_, -, h⟩ := bind_ok h; cases h; rfl
  · rw [Expr_check_like] at h
    obtain ⟨_, -, h⟩ := bind_ok h
    obtain ⟨_, -, h⟩ := bind_ok h
    obtain ⟨_, -, h⟩ := bind_ok h; cases h; rfl

/-- **C63.** A predicate can be built exactly when what it tests and what it tests against can. -/
theorem C63_predicates_build (v l u : Expr) (es : List Expr) (q : Query) (esc : Option Expr) :
    ((∃ t, (Expr.not v).check = .ok t) ↔ ∃ a, v.check = .ok a) ∧
    ((∃ t, (Expr.isNull v).check = .ok t) ↔ ∃ a, v.check = .ok a) ∧
    ((∃ t, (Expr.between v l u).check = .ok t) ↔
      (∃ a, v.check = .ok a) ∧ (∃ a, l.check = .ok a) ∧ ∃ a, u.check = .ok a) ∧
    ((∃ t, (Expr.inList v es).check = .ok t) ↔ (∃ a, v.check = .ok a) ∧ ∀ e ∈ es, ∃ a, e.check = .ok a) ∧
    ((∃ t, (Expr.inQuery v q).check = .ok t) ↔ (∃ a, v.check = .ok a) ∧ ∃ a, q.check = .ok a) ∧
    ((∃ t, (Expr.like v l esc).check = .ok t) ↔
      (∃ a, v.check = .ok a) ∧ (∃ a, l.check = .ok a) ∧ ∀ e, esc = some e → ∃ a, e.check = .ok a) := by
  have seq : ∀ {α : Type} (x : Except Err α) (k : α → Except Err Ty) (P : Prop),
      (∀ a, (∃ t, k a = .ok t) ↔ P) → ((∃ t, (x >>= k) = .ok t) ↔ (∃ a, x = .ok a) ∧ P) := by
    intro α x k P h
    constructor
    · rintro ⟨t, ht⟩
      obtain ⟨a, ha, hk⟩ := bind_ok ht
      exact ⟨⟨a, ha⟩, (h a).1 ⟨t, hk⟩⟩
    · rintro ⟨⟨a, rfl⟩, hp⟩
      exact (h a).2 hp
  have one : ∀ {α : Type} (x : Except Err α),
      (∃ t, (x >>= fun _ => (.ok .boolean : Except Err Ty)) = .ok t) ↔ ∃ a, x = .ok a := by
    intro α x
    rw [seq x _ True fun _ => ⟨fun _ => trivial, fun _ => ⟨_, rfl⟩⟩]
    simp
  have all : (∃ ts, Expr.checks es = .ok ts) ↔ ∀ e ∈ es, ∃ a, e.check = .ok a := by
    induction es with
    | nil => simp [Expr_checks_nil]
    | cons e es ih =>
      rw [Expr_checks_cons]
      constructor
      · rintro ⟨ts, h⟩
        obtain ⟨a, ha, h⟩ := bind_ok h
        obtain ⟨as, has, h⟩ := bind_ok h
        intro x hx
        rcases List.mem_cons.1 hx with rfl | hx
        · exact ⟨a, ha⟩
        · exact ih.1 ⟨as, has⟩ x hx
      · intro h
        obtain ⟨a, ha⟩ := h e List.mem_cons_self
        obtain ⟨as, has⟩ := ih.2 fun x hx => h x (List.mem_cons_of_mem _ hx)
        exact ⟨a :: as, by simp [ha, has, bind, Except.bind]⟩
  have opt : (∃ x, Expr.checkOpt esc = .ok x) ↔ ∀ e, esc = some e → ∃ a, e.check = .ok a := by
    cases esc with
    | none => exact ⟨fun _ _ h => (nomatch h), fun _ => ⟨(), rfl⟩⟩
    | some e =>
      constructor
      · rintro ⟨x, h⟩ _ ⟨⟩
        obtain ⟨a, ha, _⟩ := bind_ok h
        exact ⟨a, ha⟩
      · intro h
        obtain ⟨a, ha⟩ := h e rfl
        exact ⟨(), by show (e.check >>= fun _ => _) = _; rw [ha]; rfl⟩
  refine ⟨?_, ?_, ?_, ?_, ?_, ?_⟩
  · rw [Expr_check_not]; exact one _
  · rw [Expr_check_isNull]; exact one _
  · rw [Expr_check_between]
    exact seq _ _ _ fun _ => seq _ _ _ fun _ => one _
  · rw [Expr_check_inList, ← all]
    exact seq _ _ _ fun _ => one _
  · rw [Expr_check_inQuery]
    exact seq _ _ _ fun _ => one _
  · rw [Expr_check_like, ← opt]
    exact seq _ _ _ fun _ => seq _ _ _ fun _ => one _

/-- **C63.** An interval of years or months is an INTERVAL YEAR TO MONTH, one of days, hours, minutes
or seconds an INTERVAL DAY TO SECOND; there is no other. -/
theorem C63_interval (w f : Str) (g : Option Str) (t : Ty) :
    (Expr.interval w f g).check = .ok t ↔
      (f = c% "YEAR" ∨ f = c% "MONTH") ∧ t = .interval .yearToMonth ∨
      (f = c% "DAY" ∨ f = c% "HOUR" ∨ f = c% "MINUTE" ∨ f = c% "SECOND") ∧ t = .interval .dayToSecond := by
  rw [Expr_check_interval]
  constructor
  · intro h
    unfold intervalType at h
    split at h
    · next hf =>
      cases h
      exact .inl ⟨by simpa using hf, rfl⟩
    · split at h
      · next hf =>
        cases h
        exact .inr ⟨by simpa using hf, rfl⟩
      · cases h
  · rintro (⟨rfl | rfl, rfl⟩ | ⟨rfl | rfl | rfl | rfl, rfl⟩) <;> rfl

/-- **C63.** The functions without parentheses: CURRENT_DATE is a DATE, the session functions are
VARCHAR, and the current-time functions have the precision asked for, 12 at most. -/
theorem C63_current (s : SessFn) (f : CurFn) (p : Int) (t : Ty) :
    ((Expr.session s).check = .ok t ↔ t = if s.name = c% "CURRENT_DATE" then .simple .date else .varchar none) ∧
    ((Expr.curTime f p).check = .ok t ↔ 0 ≤ p ∧ p ≤ 12 ∧
      t = if f.name = c% "CURRENT_TIME" ∨ f.name = c% "LOCALTIME" then .time (some p) false
        else .timestamp (some p) false) := by
  refine ⟨?_, ?_⟩
  · have e : (Expr.session s).check = .ok (if s.name = c% "CURRENT_DATE" then .simple .date else .varchar none) := by
      cases s <;> rfl
    rw [e]
    exact ⟨fun h => by cases h; rfl, fun h => by rw [h]⟩
  · have e : (Expr.curTime f p).check = if 0 ≤ p ∧ p ≤ 12 then
        .ok (if f.name = c% "CURRENT_TIME" ∨ f.name = c% "LOCALTIME" then .time (some p) false
          else .timestamp (some p) false) else .error .assertion := by
      cases f <;> rfl
    rw [e]
    by_cases hp : 0 ≤ p ∧ p ≤ 12
    · rw [if_pos hp]
      exact ⟨fun h => by cases h; exact ⟨hp.1, hp.2, rfl⟩, fun h => by rw [h.2.2]⟩
    · rw [if_neg hp]
      exact ⟨fun h => (nomatch h), fun h => absurd ⟨h.1, h.2.1⟩ hp⟩

/-- **C63.** The arithmetic operators agree: whether the node can be built and, except for a
difference of dates or times, its type do not depend on which of `+ - * / %` it is. -/
theorem C63_arithmetic_agree (op op' : BinOp) (ho : arithmetic op = true) (ho' : arithmetic op' = true)
    (l r : Expr) (a b : Ty) (ha : l.check = .ok a) (hb : r.check = .ok b) (hd : ¬ datetimes a b) :
    (Expr.bin op l r).check = (Expr.bin op' l r).check := by
  have hn : ((a.isInstant && b.isInstant) || (a.isTime && b.isTime)) = false := by
    rw [Bool.eq_false_iff]
    intro h
    apply hd
    simpa [datetimes, isInstant_iff, isTime_iff, Bool.or_eq_true, Bool.and_eq_true] using h
  have key : ∀ op, arithmetic op = true → binType op a b = arithmeticType a b := by
    intro op h
    cases op <;> first | rfl | cases h | skip
    simp only [binType, hn]
    cases arithmeticType a b <;> rfl
  simp only [Expr_check_bin, ha, hb, bind, Except.bind, key op ho, key op' ho']

/-- **C63 partial.** The difference of two dates or times, when it can be built, is an INTERVAL DAY
TO SECOND; every other operator on them keeps the operands' type.  Missing: that it can be built, see
`C63_difference_raises`. -/
theorem C63_difference_partial (l r : Expr) (a b t : Ty) (ha : l.check = .ok a) (hb : r.check = .ok b)
    (hd : datetimes a b) (h : (Expr.bin .sub l r).check = .ok t) : t.sql = c% "INTERVAL DAY TO SECOND" := by
  have hn : ((a.isInstant && b.isInstant) || (a.isTime && b.isTime)) = true := by
    simpa [datetimes, isInstant_iff, isTime_iff, Bool.or_eq_true, Bool.and_eq_true] using hd
  simp only [Expr_check_bin, ha, hb, bind, Except.bind, binType, hn] at h
  cases hx : arithmeticType a b with
  | error e => rw [hx] at h; cases h
  | ok c => rw [hx] at h; cases h; decide

/-- Equal types of date and time, and a date against a timestamp, can be subtracted. -/
theorem C63_difference_builds (l r : Expr) (a b : Ty) (ha : l.check = .ok a) (hb : r.check = .ok b)
    (hd : datetimes a b) (he : a = b ∨ a.typeName ≠ b.typeName) :
    ∃ t, (Expr.bin .sub l r).check = .ok t := by
  have hx : ∃ c, arithmeticType a b = .ok c := by
    rcases he with rfl | he
    · exact ⟨a, C06_equal_types a⟩
    · have hnum : (a.isNumeric && b.isNumeric) = false := by
        rcases hd with ⟨h1, -⟩ | ⟨h1, h2⟩
        · rw [← isInstant_iff] at h1
          cases a with
          | simple s => cases s <;> first | rfl | cases h1 | (cases b with | simple s => cases s <;> rfl | _ => rfl)
          | timestamp _ _ => rfl
          | _ => cases h1
        · exact absurd (h1.trans h2.symm) he
      refine ⟨.unknown, ?_⟩
      unfold arithmeticType
      rw [if_neg fun e => he (by rw [e]), if_neg he, hnum]
      rfl
  obtain ⟨c, hc⟩ := hx
  simp only [Expr_check_bin, ha, hb, bind, Except.bind, binType, hc]
  split <;> exact ⟨_, rfl⟩

/-- **C63 fails** for two TIMESTAMPs, or two TIMEs, of different precision: building their
difference raises. -/
theorem C63_difference_raises (l r : Expr) (p q : Option Int) (y z : Bool) (t : Ty) :
    (l.check = .ok (.timestamp p y) → r.check = .ok (.timestamp q z) →
      Ty.timestamp p y ≠ .timestamp q z → (Expr.bin .sub l r).check ≠ .ok t) ∧
    (l.check = .ok (.time p y) → r.check = .ok (.time q z) →
      Ty.time p y ≠ .time q z → (Expr.bin .sub l r).check ≠ .ok t) := by
  have key : ∀ a b, l.check = .ok a → r.check = .ok b → (∀ c, arithmeticType a b ≠ .ok c) →
      (Expr.bin .sub l r).check ≠ .ok t := by
    intro a b ha hb hc h
    rw [Expr_check_bin, ha, hb] at h
    obtain ⟨c, hc', -⟩ := bind_ok (show (arithmeticType a b >>= _) = _ from h)
    exact hc c hc'
  exact ⟨fun ha hb hne => key _ _ ha hb fun c => ((C09_times_raise p q y z c).2 hne).2,
    fun ha hb hne => key _ _ ha hb fun c => ((C09_times_raise p q y z c).1 hne).2⟩

/-- **C63.** A sign keeps the type; an array has the type of its first element, a row one type per
element, a cast its target. -/
theorem C63_containers (op : UnOp) (try_ : Bool) (v : Expr) (vs : List Expr) (t : Ty) (ts : List Ty)
    (hv : v.check = .ok t) (hs : Expr.checks vs = .ok ts) (c : Ty) (hc : c ≠ .unknown) :
    (Expr.un op v).check = .ok t ∧
    (Expr.array (v :: vs)).check = .ok (.array t) ∧
    (Expr.row vs).check = .ok (.row ts) ∧
    (Expr.cast try_ v c).check = .ok c := by
  refine ⟨hv, ?_, ?_, ?_⟩
  · simp [Expr_check_array, Expr_checks_cons, hv, hs, bind, Except.bind, arrayType]
  · simp [Expr_check_row, hs, bind, Except.bind]
  · simp [Expr_check_cast, hv, hc, bind, Except.bind]

/-- **C63.** A SELECT of one item has that item's type, a SELECT of several the row of their types in
order; neither depends on the other clauses. -/
theorem C63_select (items : List Expr) (fr : Option Rel) (wh : Option Expr) (gb : Option GroupBy)
    (hv : Option Expr) (d : Bool) (wins : List (Str × Win)) (off lim : Option Int) (ob : List Ord)
    (w : List Named) (ts : List Ty) (t : Ty) (hs : Expr.checks items = .ok ts)
    (h : (Query.mk (.select items fr wh gb hv d wins) off lim ob w).check = .ok t) :
    (∀ u, ts = [u] → t = u) ∧ (2 ≤ ts.length → t = .row ts) := by
  rw [Query_check_mk] at h
  obtain ⟨_, -, h⟩ := bind_ok h
  obtain ⟨_, -, h⟩ := bind_ok h
  rw [QBody_check_select] at h
  obtain ⟨ts', hs', h⟩ := bind_ok h
  obtain rfl : ts = ts' := by rw [hs] at hs'; exact Except.ok.inj hs'
  obtain ⟨_, -, h⟩ := bind_ok h
  obtain ⟨_, -, h⟩ := bind_ok h
  obtain ⟨_, -, h⟩ := bind_ok h
  obtain ⟨_, -, h⟩ := bind_ok h
  obtain ⟨_, -, h⟩ := bind_ok h
  split at h
  · cases h
  · cases h
    refine ⟨?_, ?_⟩
    · rintro u rfl; rfl
    · intro hl
      match ts, hl with
      | _ :: _ :: _, _ => rfl

theorem valuesType_same (t : Ty) : ∀ ts : List Ty, (∀ u ∈ ts, u = t) → valuesType t ts = .ok t
  | [], _ => rfl
  | u :: ts, h => by
    have hu := h u List.mem_cons_self
    have ih := valuesType_same t ts fun v hv => h v (List.mem_cons_of_mem _ hv)
    subst hu
    rw [valuesType]
    split
    · exact ih
    · rw [supertype_self]; exact ih

/-- **C63.** VALUES of rows of one type has that type. -/
theorem C63_values (es : List Expr) (ts : List Ty) (t : Ty) (off lim : Option Int) (hne : es ≠ [])
    (hs : Expr.checks es = .ok ts) (h : ∀ u ∈ ts, u = t) :
    (Query.mk (.values es) off lim [] []).check = .ok t := by
  show (QBody.values es).check = _
  rw [QBody_check_values, hs]
  match es, ts, hne, hs with
  | e :: es, [], _, hs =>
    rw [Expr_checks_cons] at hs
    obtain ⟨_, -, hs⟩ := bind_ok hs
    obtain ⟨_, -, hs⟩ := bind_ok hs
    cases hs
  | e :: es, u :: ts, _, _ =>
    have hu := h u List.mem_cons_self
    subst hu
    show valuesType .unknown (u :: ts) = _
    rw [valuesType, if_pos rfl]
    exact valuesType_same u ts fun v hv => h v (List.mem_cons_of_mem _ hv)

/-- What the theorems above speak of can be built: a date less a timestamp, and a time less a time
of the same precision; two times of different precision cannot be subtracted. -/
theorem C63_reached :
    (Expr.bin .sub (.lit none (.simple .date)) (.lit none (.timestamp (some 3) true))).check =
      .ok .dayToSecond ∧
    (Expr.bin .sub (.lit none (.time (some 3) true)) (.lit none (.time (some 3) true))).check =
      .ok .dayToSecond ∧
    (Expr.bin .add (.lit none (.time (some 3) true)) (.lit none (.time (some 3) true))).check =
      .ok (.time (some 3) true) ∧
    (Expr.bin .sub (.lit none (.simple .date)) (.lit none (.time (some 3) true))).check =
      .ok .unknown := by
  refine ⟨?_, ?_, ?_, ?_⟩ <;> rfl

/-! ## C42: the depth of arrays -/

/-- A type is an array of arrays of … of something else, this many times. -/
inductive Depth : Ty → Nat → Prop
  | flat (t : Ty) (h : ∀ u, t ≠ .array u) : Depth t 0
  | array (t : Ty) (n : Nat) (h : Depth t n) : Depth (.array t) (n + 1)

theorem layers_depth : ∀ (t : Ty) (n : Nat), Depth t n → t.layers = n
  | _, _, .flat t h => by
    cases t with
    | array u => exact absurd rfl (h u)
    | _ => rfl
  | _, _, .array t n h => by rw [Ty.layers, layers_depth t n h]

theorem depth_layers : ∀ (t : Ty), Depth t t.layers
  | .array t => .array t _ (depth_layers t)
  | .simple _ | .decimal _ _ | .varchar _ | .char _ | .time _ _ | .timestamp _ _ | .map _ _
  | .row _ | .interval _ | .qdigest _ => .flat _ nofun

theorem le_maxNat {k : Nat} : ∀ (l : List Nat), k ∈ l → k ≤ maxNat l
  | a :: l, h => by
    rw [maxNat]
    rcases List.mem_cons.1 h with rfl | h
    · omega
    · have := le_maxNat l h; omega

theorem minNat_le {k : Nat} : ∀ (l : List Nat), k ∈ l → minNat l ≤ k
  | [a], h => by simp at h; subst h; exact Nat.le_refl _
  | a :: b :: l, h => by
    simp only [minNat]
    rcases List.mem_cons.1 h with rfl | h
    · omega
    · have := minNat_le (b :: l) h; omega

/-- **C42.** When arrays are concatenated, the depths of any two operands differ by at most one, and
the result is an array. -/
theorem C42_depths (ts : List Ty) (t : Ty) (hu : .unknown ∉ ts) (ha : ∃ u, .array u ∈ ts)
    (h : concatType ts = .ok t) :
    (∃ u, t = .array u) ∧
      ∀ a ∈ ts, ∀ b ∈ ts, ∀ m n, Depth a m → Depth b n → m ≤ n + 1 := by
  obtain ⟨u, ha⟩ := ha
  have h2 : ts.any Ty.isArray = true := by rw [List.any_eq_true]; exact ⟨_, ha, rfl⟩
  have h1 : ts.contains .unknown = false := by simpa using hu
  simp only [concatType, h1, h2, arrayConcatType] at h
  by_cases hle : maxNat (ts.map Ty.layers) - minNat (ts.map Ty.layers) ≤ 1
  · simp only [hle] at h
    obtain ⟨c, -, h⟩ := bind_ok (show (reduceTy commonSupertype _ >>= _) = _ from h)
    cases h
    refine ⟨⟨c, rfl⟩, fun a ha b hb m n hm hn => ?_⟩
    have e1 := le_maxNat _ (List.mem_map_of_mem (f := Ty.layers) ha)
    have e2 := minNat_le _ (List.mem_map_of_mem (f := Ty.layers) hb)
    rw [layers_depth _ _ hm] at e1
    rw [layers_depth _ _ hn] at e2
    omega
  · simp [hle] at h

example : concatType [.array (.array (.char 3)), .char 3] = .error .assertion := by decide

end Treeno.Props
