import Verif.Lemmas.SqlEqs
import Verif.Lemmas.CheckEqs
import Verif.Lemmas.Conversions
import Verif.Lemmas.TypeText
/-!
# Building nodes: properties C12, C31, C42, C43, C54, C55
-/
set_option linter.unusedSimpArgs false
set_option autoImplicit false
namespace Treeno.Props
open Treeno

/-! ## C12: wrapping literals -/

/-- **C12.** What `wrap_literal` returns is returned unchanged when wrapped again. -/
theorem C12_idempotent {a : Arg} {e : Expr} (_ : wrapLiteral a = .ok e) :
    wrapLiteral (.value e) = .ok e := rfl

theorem inferType_known {v : Scalar} {t : Ty} (h : inferType v = .ok t) : t ≠ .unknown := by
  rintro rfl
  cases v with
  | bool b => cases h
  | int n =>
    have := Except.ok.inj h
    simp only [inferIntegral] at this
    split at this <;> cases this
  | float r => cases h
  | str s => cases h
  | dec d =>
    change inferDecimalText _ = _ at h
    unfold inferDecimalText at h
    split at h
    · rw [mkDecimal_eq] at h; split at h <;> cases h
    · split at h
      · rw [mkDecimal_eq] at h; split at h <;> cases h
      · cases h

/-- **C12.** Wrapping succeeds exactly for tree nodes, which come back unchanged, and for scalars
that have a type; then the result is the literal with that value and that type, it is never typed
UNKNOWN, and the `Literal` constructor accepts it.  In particular `None` and containers are refused. -/
theorem C12_wrap_iff (a : Arg) (e : Expr) :
    wrapLiteral a = .ok e ↔
      a = .value e ∨ ∃ v t, a = .py v ∧ inferType v = .ok t ∧ e = .lit (some v) t ∧
        t ≠ .unknown ∧ e.check = .ok t := by
  constructor
  · intro h
    cases a with
    | value e' => exact .inl (by cases h; rfl)
    | none => cases h
    | container => cases h
    | py v =>
      obtain ⟨t, ht, h⟩ := bind_ok h
      cases h
      have hk := inferType_known ht
      exact .inr ⟨v, t, rfl, ht, rfl, hk, by simp [Expr_check_lit, hk]⟩
  · rintro (rfl | ⟨v, t, rfl, ht, rfl, -, -⟩)
    · rfl
    · simp only [wrapLiteral, ht]; rfl

/-- Strings, numbers and booleans always wrap; a decimal wraps exactly when it has a type. -/
theorem C12_scalars_wrap (v : Scalar) (h : ∀ d, v ≠ .dec d) :
    ∃ t, wrapLiteral (.py v) = .ok (.lit (some v) t) := by
  cases v with
  | bool b => exact ⟨.simple .boolean, rfl⟩
  | int n => exact ⟨inferIntegral n, rfl⟩
  | float r => exact ⟨.simple .double, rfl⟩
  | str s => exact ⟨.varchar (some s.length), rfl⟩
  | dec d => exact absurd rfl (h d)

example : wrapLiteral (.py (.str (c% "ab"))) = .ok (.lit (some (.str (c% "ab"))) (.varchar (some 2))) :=
  rfl

/-! ## C54: Python operators -/

/-- What the reader of a query expects between the operands. -/
def sqlSymbol : PyOp → Str
  | .add => c% " + " | .sub => c% " - " | .mul => c% " * " | .truediv => c% " / "
  | .mod => c% " % " | .eq => c% " = " | .ne => c% " <> " | .gt => c% " > " | .ge => c% " >= "
  | .lt => c% " < " | .le => c% " <= " | .and => c% " AND " | .or => c% " OR " | .pow => []

/-- The operand's text, possibly in parentheses. -/
def OperandText (e : Expr) (s : Str) : Prop :=
  ∃ t, e.sql dfltOpts = .ok t ∧ (s = t ∨ s = parenS t)

theorem operandText_pemdas {c v : Option Nat} {b : Bool} {e : Expr} {s : Str}
    (h : pemdas c v b (e.sqlN false dfltOpts) (e.sqlN false dfltOpts) = .ok s) : OperandText e s := by
  have key : ∀ x : Except Err Str, x = .ok s ∨ parenS <$> x = .ok s →
      ∃ t, x = .ok t ∧ (s = t ∨ s = parenS t) := by
    intro x hx
    match x, hx with
    | .ok t, .inl h => exact ⟨t, rfl, .inl (Except.ok.inj h).symm⟩
    | .ok t, .inr h => exact ⟨t, rfl, .inr (Except.ok.inj h).symm⟩
    | .error _, .inl h => cases h
    | .error _, .inr h => cases h
  apply key
  unfold pemdas at h
  split at h
  · split at h
    · split at h
      · exact .inl h
      · exact .inr h
    · split at h
      · exact .inr h
      · exact .inl h
  · exact .inl h

/-- The node is what its name says: printing `a <op> b` gives the operands in source order around
the SQL symbol. -/
theorem C54_text (op : PyOp) (hop : op ≠ .pow) (l : Expr) (r : Arg) (e : Expr) (s : Str)
    (h : pyBinary op l r = .ok e) (hs : e.sql dfltOpts = .ok s) :
    ∃ r' a b, wrapLiteral r = .ok r' ∧ OperandText l a ∧ OperandText r' b ∧
      s = a ++ sqlSymbol op ++ b := by
  obtain ⟨r', hr, h⟩ := bind_ok h
  obtain ⟨_, -, h⟩ := bind_ok h
  cases h
  refine ⟨r', ?_⟩
  cases op <;> first
    | exact absurd rfl hop
    | (simp only [PyOp.node, Expr.sql, Expr_sqlN_bin] at hs
       obtain ⟨a, ha, hs⟩ := bind_ok hs
       obtain ⟨b, hb, hs⟩ := bind_ok hs
       have := Except.ok.inj hs
       subst this
       refine ⟨a, b, hr, operandText_pemdas ha, operandText_pemdas hb, ?_⟩
       simp [binText, sqlSymbol, spacing, dfltOpts])

/-- `a ** b` is a call of POWER on the operands in source order. -/
theorem C54_pow_text (l : Expr) (r : Arg) (e : Expr) (s : Str)
    (h : pyBinary .pow l r = .ok e) (hs : e.sql dfltOpts = .ok s) :
    ∃ r' a b, wrapLiteral r = .ok r' ∧ l.sql dfltOpts = .ok a ∧ r'.sql dfltOpts = .ok b ∧
      s = c% "POWER(" ++ a ++ c% "," ++ b ++ c% ")" := by
  obtain ⟨r', hr, h⟩ := bind_ok h
  obtain ⟨_, -, h⟩ := bind_ok h
  cases h
  simp only [PyOp.node, Expr.sql, Expr_sqlN_func] at hs
  obtain ⟨ss, hss, hs⟩ := bind_ok hs
  obtain ⟨j, hj, hs⟩ := bind_ok hs
  simp only [Expr_sqls_cons, Expr_sqls_nil] at hss
  obtain ⟨a, ha, hss⟩ := bind_ok hss
  obtain ⟨bs, hb, hss⟩ := bind_ok hss
  obtain ⟨b, hb', hb⟩ := bind_ok hb
  cases hb
  cases hss
  refine ⟨r', a, b, hr, ha, hb', ?_⟩
  cases Except.ok.inj hs
  cases hj
  simp [Fn.name, joinLoop, join, dfltOpts]

/-- Every operator of two tree nodes yields a node unless typing the node raises, and typing can
only raise for arithmetic operators. -/
theorem C54_builds (op : PyOp) (l r : Expr) (tl tr : Ty) (hl : l.check = .ok tl)
    (hr : r.check = .ok tr) (hop : op ∉ [.add, .sub, .mul, .truediv, .mod]) :
    pyBinary op l (.value r) = .ok (op.node l r) := by
  cases op <;> first
    | exact absurd (by decide) hop
    | simp [pyBinary, wrapLiteral, PyOp.node, Expr.build, Expr_check_bin, Expr_check_func, Expr_checks_cons, Expr_checks_nil, hl, hr, bind,
        Except.bind, binType, fnType, arityOk, Fn.arity]

/-- The meaning of an operator with its operands exchanged: `a < b` iff `b > a`. -/
def mirror {α : Type} (op : PyOp) (cmp : PyOp → α → α → Prop) : Prop :=
  match op.reflected with
  | some op' => ∀ x y, cmp op x y ↔ cmp op' y x
  | none => True

/-- What a comparison of numbers means. -/
def cmpInt : PyOp → Int → Int → Prop
  | .eq, x, y => x = y
  | .ne, x, y => x ≠ y
  | .gt, x, y => x > y
  | .ge, x, y => x ≥ y
  | .lt, x, y => x < y
  | .le, x, y => x ≤ y
  | _, _, _ => False

/-- With a Python scalar on the left of a comparison the node is the mirrored comparison, which means
the same. -/
theorem C54_reflected_meaning (op : PyOp) : mirror op cmpInt := by
  cases op <;> simp [mirror, PyOp.reflected, cmpInt] <;> intros <;> constructor <;> intro h <;>
    first | exact h.symm | (intro e; exact h e.symm)

/-- **C54, as stated, is false:** with a literal on the left the arithmetic and logical operators
raise, whatever the operands. -/
theorem C54_literal_left_raises (op : PyOp) (h : op ∈ [.add, .sub, .mul, .truediv, .pow, .mod, .and, .or])
    (v : Scalar) (e : Expr) : pyReflected op v e = .error .typeError := by
  cases op <;> first | rfl | exact absurd h (by decide)

/-- **C54 partial.** The node built for `a <op> b`, operands in source order and literals wrapped,
holds for a tree node on the left.  Missing: a Python scalar on the left, where
`C54_literal_left_raises` shows the claim false. -/
theorem C54_node_partial (op : PyOp) (l : Expr) (r : Arg) (e : Expr) :
    pyBinary op l r = .ok e ↔
      ∃ r' t, wrapLiteral r = .ok r' ∧ e = op.node l r' ∧ e.check = .ok t := by
  constructor
  · intro h
    obtain ⟨r', hr, h⟩ := bind_ok h
    obtain ⟨t, ht, h⟩ := bind_ok h
    cases h
    exact ⟨r', t, hr, rfl, ht⟩
  · rintro ⟨r', t, hr, rfl, ht⟩
    simp only [pyBinary, hr, Expr.build, bind, Except.bind, ht]

example : (pyBinary .add (.field (c% "a") none (.simple .integer)) (.py (.int 1))).bind
    (·.sql dfltOpts) = .ok (c% "\"a\" + 1") := by decide +kernel

/-- What the reader expects in front of the operand. -/
def unSymbol : PyUn → Str
  | .invert => c% "NOT " | .pos => c% "+" | .neg => c% "-"

/-- **C54.** `~v`, `+v` and `-v` never fail on a valid tree; the signs keep its type, `~` gives a boolean.  The text is the
symbol followed by the operand; `~` of a predicate that SQL can negate itself is printed that way instead (C26). -/
theorem C54_unary (op : PyUn) (v : Expr) (t : Ty) (hv : v.check = .ok t) :
    ∃ e, pyUnary op v = .ok e ∧ e.check = .ok (if op = .invert then .simple .boolean else t) ∧
      ((op = .invert → v.negatable = false) → ∀ s, e.sql dfltOpts = .ok s → ∃ a, OperandText v a ∧ s = unSymbol op ++ a) := by
  cases op with
  | invert =>
    have hc : (Expr.not v).check = .ok (.simple .boolean) := by rw [Expr_check_not, hv]; rfl
    refine ⟨.not v, ?_, hc, fun hn s hs => ?_⟩
    · show (Expr.not v).build = _
      rw [Expr.build, hc]; rfl
    · rw [show Expr.sql dfltOpts (.not v) = Expr.sqlN false dfltOpts (.not v) from rfl, Expr_sqlN_not, hn rfl] at hs
      obtain ⟨a, ha, hs⟩ := bind_ok (hs : (pemdas _ _ _ _ _ >>= _) = _)
      exact ⟨a, operandText_pemdas ha, (Except.ok.inj hs).symm⟩
  | pos =>
    have hc : (Expr.un .pos v).check = .ok t := by rw [Expr_check_un, hv]
    refine ⟨.un .pos v, ?_, hc, fun hn s hs => ?_⟩
    · show (Expr.un .pos v).build = _
      rw [Expr.build, hc]; rfl
    · rw [show Expr.sql dfltOpts (.un .pos v) = Expr.sqlN false dfltOpts (.un .pos v) from rfl, Expr_sqlN_un] at hs
      obtain ⟨a, ha, hs⟩ := bind_ok hs
      exact ⟨a, operandText_pemdas ha, (Except.ok.inj hs).symm⟩
  | neg =>
    have hc : (Expr.un .neg v).check = .ok t := by rw [Expr_check_un, hv]
    refine ⟨.un .neg v, ?_, hc, fun hn s hs => ?_⟩
    · show (Expr.un .neg v).build = _
      rw [Expr.build, hc]; rfl
    · rw [show Expr.sql dfltOpts (.un .neg v) = Expr.sqlN false dfltOpts (.un .neg v) from rfl, Expr_sqlN_un] at hs
      obtain ⟨a, ha, hs⟩ := bind_ok hs
      exact ⟨a, operandText_pemdas ha, (Except.ok.inj hs).symm⟩

example : (do (← pyUnary .neg (← pyBinary .add (.field (c% "a") none (.simple .integer)) (.py (.int 1)))).sql dfltOpts) =
    .ok (c% "-(\"a\" + 1)") := by decide +kernel

/-! ## C42: concatenation -/

/-- The number of characters a character type holds. -/
def charLen : Ty → Int
  | .char n => n
  | .varchar (some n) => n
  | _ => 0

/-- **C42.** Any operand of unknown type makes the concatenation unknown. -/
theorem C42_unknown (ts : List Ty) (h : Ty.unknown ∈ ts) : concatType ts = .ok .unknown := by
  simp [concatType, h]

theorem charSum_eq : ∀ (ts : List Ty), (∀ t ∈ ts, (∃ n, t = .char n) ∨ ∃ n, t = .varchar (some n) ∧ n ≤ 65536) →
    charSum ts = .ok (ts.map charLen).sum
  | [], _ => rfl
  | t :: ts, h => by
    have ih := charSum_eq ts fun u hu => h u (List.mem_cons_of_mem _ hu)
    rcases h t List.mem_cons_self with ⟨n, rfl⟩ | ⟨n, rfl, hn⟩
    · simp [charSum, ih, Ty.isChar, charLen, bind, Except.bind]
    · have : min maxCharLength n = n := by unfold maxCharLength; omega
      simp [charSum, ih, Ty.isChar, charLen, bind, Except.bind, promoteVarcharToChar, this, mkChar_eq]

/-- **C42 partial.** Character operands, at least one of them CHAR, every VARCHAR bounded by the
largest CHAR: the concatenation is CHAR of the sum of the lengths.  Missing: unbounded VARCHAR, see
`C42_unbounded_varchar_counts_one`. -/
theorem C42_char_length_partial (ts : List Ty) (hc : ∃ n, .char n ∈ ts)
    (h : ∀ t ∈ ts, (∃ n, t = .char n) ∨ ∃ n, t = .varchar (some n) ∧ n ≤ 65536) :
    concatType ts = .ok (.char (ts.map charLen).sum) := by
  have h1 : Ty.unknown ∉ ts := fun hu => by rcases h _ hu with ⟨n, e⟩ | ⟨n, e, -⟩ <;> cases e
  have h2 : ts.any Ty.isArray = false := by
    rw [List.any_eq_false]
    intro t ht
    rcases h t ht with ⟨n, rfl⟩ | ⟨n, rfl, -⟩ <;> simp [Ty.isArray]
  have h3 : ts.all Ty.isString = true := by
    rw [List.all_eq_true]
    intro t ht
    rcases h t ht with ⟨n, rfl⟩ | ⟨n, rfl, -⟩ <;> rfl
  have h4 : ts.any Ty.isChar = true := by
    obtain ⟨n, hn⟩ := hc
    rw [List.any_eq_true]
    exact ⟨_, hn, rfl⟩
  simp [concatType, h1, h2, h3, stringConcatType, h4, charSum_eq ts h, bind, Except.bind, mkChar_eq]

example : concatType [.char 3, .varchar (some 4)] = .ok (.char 7) := by decide

/-- **C42, as stated, is false** for an unbounded VARCHAR: it counts as one character. -/
theorem C42_unbounded_varchar_counts_one (n : Int) :
    concatType [.char n, .varchar none] = .ok (.char (n + 1)) := by
  simp [concatType, stringConcatType, charSum, Ty.isArray, Ty.isString, Ty.isChar, bind, Except.bind,
    promoteVarcharToChar, mkChar_nil, mkChar_eq, Ty.unknown]

/-- **C42.** VARCHAR operands give an unbounded VARCHAR, VARBINARY operands give VARBINARY. -/
theorem C42_varchar (ts : List Ty) (h : ∀ t ∈ ts, ∃ n, t = .varchar n) :
    concatType ts = .ok (.varchar none) := by
  have h1 : Ty.unknown ∉ ts := fun hu => by obtain ⟨n, e⟩ := h _ hu; cases e
  have h2 : ts.any Ty.isArray = false := by
    rw [List.any_eq_false]; intro t ht; obtain ⟨n, rfl⟩ := h t ht; simp [Ty.isArray]
  have h3 : ts.all Ty.isString = true := by
    rw [List.all_eq_true]; intro t ht; obtain ⟨n, rfl⟩ := h t ht; rfl
  have h4 : ts.any Ty.isChar = false := by
    rw [List.any_eq_false]; intro t ht; obtain ⟨n, rfl⟩ := h t ht; simp [Ty.isChar]
  simp [concatType, h1, h2, h3, stringConcatType, h4]

theorem C42_varbinary (ts : List Ty) (hne : ts ≠ []) (h : ∀ t ∈ ts, t = .simple .varbinary) :
    concatType ts = .ok (.simple .varbinary) := by
  have h1 : Ty.unknown ∉ ts := fun hu => by cases h _ hu
  have h2 : ts.any Ty.isArray = false := by
    rw [List.any_eq_false]; intro t ht; rw [h t ht]; simp [Ty.isArray]
  have h3 : ts.all Ty.isString = false := by
    obtain ⟨t, ts, rfl⟩ := List.exists_cons_of_ne_nil hne
    rw [h t List.mem_cons_self]; simp [Ty.isString]
  have h4 : ts.all (· = .simple .varbinary) = true := by
    rw [List.all_eq_true]; intro t ht; simp [h t ht]
  simp only [concatType, List.contains_iff_mem, h1, h2, h3, h4]; simp

theorem maxNat_eq {k : Nat} : ∀ (l : List Nat), k ∈ l → (∀ x ∈ l, x ≤ k) → maxNat l = k
  | [], h, _ => by simp at h
  | a :: l, h, hle => by
    have hb : ∀ (l : List Nat), (∀ x ∈ l, x ≤ k) → maxNat l ≤ k := by
      intro l
      induction l with
      | nil => intro _; exact Nat.zero_le _
      | cons a l ih =>
        intro h
        have h1 := h a List.mem_cons_self
        have h2 := ih fun x hx => h x (List.mem_cons_of_mem _ hx)
        rw [maxNat]; omega
    have ha := hle a List.mem_cons_self
    have hl : ∀ x ∈ l, x ≤ k := fun x hx => hle x (List.mem_cons_of_mem _ hx)
    by_cases hk : k ∈ l
    · rw [maxNat, maxNat_eq l hk hl]; omega
    · have : k = a := by simpa [hk] using h
      subst this
      have := hb l hl
      rw [maxNat]; omega

theorem minNat_ge {k : Nat} : ∀ (l : List Nat), l ≠ [] → (∀ x ∈ l, k ≤ x) → k ≤ minNat l
  | [a], _, h => h a List.mem_cons_self
  | a :: b :: l, _, h => by
    have := minNat_ge (b :: l) (by simp) fun x hx => h x (List.mem_cons_of_mem _ hx)
    have ha := h a List.mem_cons_self
    simp only [minNat]; omega

theorem foldlM_supertype (t : Ty) : ∀ ts : List Ty, (∀ u ∈ ts, u = t) →
    ts.foldlM commonSupertype t = .ok t
  | [], _ => rfl
  | u :: ts, h => by
    rw [List.foldlM_cons, h u List.mem_cons_self, supertype_self]
    exact foldlM_supertype t ts fun v hv => h v (List.mem_cons_of_mem _ hv)

theorem reduceTy_same (t : Ty) (ts : List Ty) (hne : ts ≠ []) (h : ∀ u ∈ ts, u = t) :
    reduceTy commonSupertype ts = .ok t := by
  obtain ⟨u, us, rfl⟩ := List.exists_cons_of_ne_nil hne
  rw [reduceTy, h u List.mem_cons_self]
  exact foldlM_supertype t us fun v hv => h v (List.mem_cons_of_mem _ hv)

/-- **C42 partial.** Arrays of `t` and single elements of type `t` concatenate to an array of `t`:
element type and depth are kept.  Missing: operands whose element types merely have a common
supertype, see `C42_element_supertype_lost`. -/
theorem C42_array_partial (t : Ty) (ts : List Ty) (ht : t ≠ .unknown) (ha : .array t ∈ ts)
    (h : ∀ u ∈ ts, u = .array t ∨ u = t) : concatType ts = .ok (.array t) := by
  have hl : ∀ u ∈ ts, u.layers = t.layers + 1 ∨ u.layers = t.layers := by
    intro u hu
    rcases h u hu with rfl | rfl
    · exact .inl rfl
    · exact .inr rfl
  have h1 : Ty.unknown ∉ ts := fun hu => by
    rcases h _ hu with e | e
    · cases e
    · exact ht e.symm
  have h2 : ts.any Ty.isArray = true := by rw [List.any_eq_true]; exact ⟨_, ha, rfl⟩
  have hmax : maxNat (ts.map Ty.layers) = t.layers + 1 := by
    apply maxNat_eq
    · exact List.mem_map.2 ⟨_, ha, rfl⟩
    · intro x hx
      obtain ⟨u, hu, rfl⟩ := List.mem_map.1 hx
      rcases hl u hu with e | e <;> omega
  have hne : ts ≠ [] := List.ne_nil_of_mem ha
  have hmin : t.layers ≤ minNat (ts.map Ty.layers) := by
    apply minNat_ge _ (by simpa using hne)
    intro x hx
    obtain ⟨u, hu, rfl⟩ := List.mem_map.1 hx
    rcases hl u hu with e | e <;> omega
  have hred : reduceTy commonSupertype (ts.map (stripLayer (t.layers + 1))) = .ok t := by
    apply reduceTy_same t _ (by simpa using hne)
    intro u hu
    obtain ⟨v, hv, rfl⟩ := List.mem_map.1 hu
    rcases h v hv with rfl | rfl
    · simp [stripLayer, Ty.layers]
    · simp [stripLayer]
  have hle : t.layers + 1 - minNat (ts.map Ty.layers) ≤ 1 := by omega
  simp [concatType, h1, h2, arrayConcatType, hmax, hle, hred, bind, Except.bind]

example : concatType [.array (.array (.char 3)), .array (.char 3)] = .ok (.array (.array (.char 3))) := by
  decide

/-- **C42, as stated, is false** for element types of the same name and different parameters: the
element type becomes UNKNOWN although both have a common supertype. -/
theorem C42_element_supertype_lost :
    concatType [.array (.varchar (some 1)), .array (.varchar (some 2))] = .ok (.array .unknown) := by
  decide

/-! ## C43: conditionals -/

/-- **C43.** The type of IF does not depend on the condition. -/
theorem C43_if_condition (c c' : Expr) (t t' : Ty) (hc : c.check = .ok t) (hc' : c'.check = .ok t')
    (rest : List Expr) : (Expr.func .if_ (c :: rest)).check = (Expr.func .if_ (c' :: rest)).check := by
  simp only [Expr_check_func, Expr_checks_cons, Expr_checks_nil, hc, hc', bind, Except.bind]
  cases Expr.checks rest with
  | error _ => rfl
  | ok ts =>
    match ts with
    | [] | [_] | [_, _] | _ :: _ :: _ :: _ => rfl

/-- **C43.** IF and COALESCE have the common supertype of their result operands, whenever there is
one; IF without an else branch, NULLIF and TRY have the type of their first result operand. -/
theorem C43_types (c a b : Expr) (tc ta tb : Ty) (hc : c.check = .ok tc) (ha : a.check = .ok ta)
    (hb : b.check = .ok tb) :
    (Expr.func .if_ [c, a]).check = .ok ta ∧
    (Expr.func .nullif [a, b]).check = .ok ta ∧
    (Expr.func .try_ [a]).check = .ok ta ∧
    (∀ t, (Expr.func .if_ [c, a, b]).check = .ok t ↔ commonSupertype ta tb = .ok t) ∧
    (ta ≠ .unknown → tb ≠ .unknown →
      ∀ t, (Expr.func .coalesce [a, b]).check = .ok t ↔ commonSupertype ta tb = .ok t) := by
  refine ⟨?_, ?_, ?_, fun t => ?_, fun h1 h2 t => ?_⟩
  all_goals simp [Expr_check_func, Expr_checks_cons, Expr_checks_nil, ha, hb, hc, bind, Except.bind, fnType, arityOk, Fn.arity]
  simp [coalesceType, h1, h2, reduceTy]

theorem checks_length : ∀ (es : List Expr) (ts : List Ty), Expr.checks es = .ok ts → ts.length = es.length
  | [], ts, h => by cases h; rfl
  | e :: es, ts, h => by
    obtain ⟨t, _, h⟩ := bind_ok h
    obtain ⟨us, hus, h⟩ := bind_ok h
    cases h
    simp [checks_length es us hus]

/-- **C43.** COALESCE of operands of one type, some of them possibly unknown, has that type. -/
theorem C43_coalesce_same (es : List Expr) (ts : List Ty) (t : Ty) (hs : Expr.checks es = .ok ts)
    (ht : t ≠ .unknown) (hmem : t ∈ ts) (h : ∀ u ∈ ts, u = t ∨ u = .unknown) :
    (Expr.func .coalesce es).check = .ok t := by
  simp only [Expr_check_func, hs, bind, Except.bind, fnType, arityOk, Fn.arity, coalesceType]
  simp
  apply reduceTy_same
  · intro e
    rw [List.filter_eq_nil_iff] at e
    simpa [ht] using e t hmem
  · intro u hu
    have := List.mem_filter.1 hu
    rcases h u this.1 with e | e
    · exact e
    · simp [e] at this

/-- **C43, as stated, is false:** a CASE has the type of its first branch, not a common supertype. -/
theorem C43_case_first_branch (c : Expr) (tc : Ty) (hc : c.check = .ok tc) :
    (Expr.case none [(c, .lit (some (.int 1)) (.simple .integer))]
      (some (.lit (some (.float (c% "2.5"))) .double))).check = .ok (.simple .integer) ∧
    commonSupertype (.simple .integer) .double = .ok .double := by
  constructor
  · simp [Expr_check_case, Expr_checkOpt_none, Expr_checkOpt_some, Expr_check_lit, firstType, Expr_checkWhens_cons, Expr_checkWhens_nil, hc, bind, Except.bind, Ty.unknown]
  · decide

/-- **C43, as stated, is false:** when no operand type is known COALESCE raises. -/
theorem C43_coalesce_unknown_raises (es : List Expr) (ts : List Ty) (hs : Expr.checks es = .ok ts)
    (h : ∀ u ∈ ts, u = .unknown) : (Expr.func .coalesce es).check = .error .typeError := by
  have : ts.filter (fun u => !decide (u = Ty.unknown)) = [] := by
    rw [List.filter_eq_nil_iff]; intro u hu; simp [h u hu]
  simp only [Expr_check_func, hs, bind, Except.bind, fnType, arityOk, Fn.arity, coalesceType]
  simp [this, reduceTy]

/-- **C43 partial.** A CASE whose branches all have type `t` has type `t`, whatever its operand,
conditions and else branch.  Missing: branches of different types (`C43_case_first_branch`). -/
theorem C43_case_partial (v el : Option Expr) (bs : List (Expr × Expr)) (ts : List Ty) (t : Ty)
    (hv : ∀ e ∈ v, ∃ u, e.check = .ok u) (hel : ∀ e ∈ el, ∃ u, e.check = .ok u)
    (hb : Expr.checkWhens bs = .ok ts) (hne : bs ≠ []) (h : ∀ u ∈ ts, u = t) :
    (Expr.case v bs el).check = .ok t := by
  have hts : ts ≠ [] := by
    rintro rfl
    obtain ⟨⟨c, w⟩, bs, rfl⟩ := List.exists_cons_of_ne_nil hne
    obtain ⟨_, _, hb⟩ := bind_ok hb
    obtain ⟨_, _, hb⟩ := bind_ok hb
    obtain ⟨_, _, hb⟩ := bind_ok hb
    cases hb
  obtain ⟨u, us, rfl⟩ := List.exists_cons_of_ne_nil hts
  cases h u List.mem_cons_self
  cases v with
  | none =>
    cases el with
    | none => simp [Expr_check_case, Expr_checkOpt_none, Expr_checkOpt_some, Expr_check_lit, firstType, hb, bind, Except.bind]
    | some e => obtain ⟨w, hw⟩ := hel e rfl; simp [Expr_check_case, Expr_checkOpt_none, Expr_checkOpt_some, Expr_check_lit, firstType, hb, hw, bind, Except.bind]
  | some v =>
    obtain ⟨x, hx⟩ := hv v rfl
    cases el with
    | none => simp [Expr_check_case, Expr_checkOpt_none, Expr_checkOpt_some, Expr_check_lit, firstType, hb, hx, bind, Except.bind]
    | some e => obtain ⟨w, hw⟩ := hel e rfl; simp [Expr_check_case, Expr_checkOpt_none, Expr_checkOpt_some, Expr_check_lit, firstType, hb, hx, hw, bind, Except.bind]

/-! ## C31: join configurations -/

/-- The configurations SQL has: a cross join stands alone, any other join has exactly one of NATURAL
and a criteria. -/
def MeaningfulJoin (t : JoinType) (natural crit : Bool) : Prop :=
  if t = .cross then natural = false ∧ crit = false else natural ≠ crit

/-- **C31 partial.** A cross join with criteria and a natural join with criteria are refused, and
every meaningful configuration is accepted.  Missing: the converse, see `C31_meaningless_accepted`. -/
theorem C31_config_partial (t : JoinType) (natural crit : Bool) :
    (MeaningfulJoin t natural crit → joinConfigOk t natural crit = true) ∧
    (crit = true → natural = true ∨ t = .cross → joinConfigOk t natural crit = false) := by
  unfold MeaningfulJoin
  cases t <;> cases natural <;> cases crit <;> decide

/-- **C31, as stated, is false:** natural cross joins and criteria-less inner joins are accepted. -/
theorem C31_meaningless_accepted :
    (¬ MeaningfulJoin .cross true false ∧ joinConfigOk .cross true false = true) ∧
    (¬ MeaningfulJoin .inner false false ∧ joinConfigOk .inner false false = true) := by
  unfold MeaningfulJoin; decide

/-! ## C55: precision of TIME and TIMESTAMP text -/

/-- **C55.** The precision inferred for time text `whole.fraction rest` is the number of characters
of the fraction (the part after the last dot, up to a blank). -/
theorem C55_fraction_digits (whole frac zone : Str) (hf : ∀ c ∈ frac, c ≠ '.' ∧ c ≠ ' ')
    (hz : ∀ c ∈ zone, c ≠ '.') (hs : zone = [] ∨ ∃ z, zone = ' ' :: z) :
    inferTimelikePrecision (whole ++ '.' :: frac ++ zone) = frac.length := by
  have hrest : ∀ c ∈ frac ++ zone, c ≠ '.' := by
    intro c hc
    rcases List.mem_append.1 hc with h | h
    · exact (hf c h).1
    · exact hz c h
  have h1 : afterLast '.' (whole ++ '.' :: frac ++ zone) = frac ++ zone := by
    have : whole ++ '.' :: frac ++ zone = whole ++ '.' :: (frac ++ zone) := by simp
    rw [this]
    unfold afterLast
    rw [List.reverse_append, List.reverse_cons, List.append_assoc, List.takeWhile_append_of_pos]
    · simp
    · intro c hc
      simpa using hrest c (List.mem_reverse.1 hc)
  have h2 : '.' ∈ whole ++ '.' :: frac ++ zone := by simp
  have h3 : (frac ++ zone).takeWhile (· != ' ') = frac := by
    rw [List.takeWhile_append_of_pos (fun c hc => by simpa using (hf c hc).2)]
    rcases hs with rfl | ⟨z, rfl⟩ <;> simp
  unfold inferTimelikePrecision
  rw [if_neg (not_not_intro h2), h1, h3]

/-- **C55.** Without a dot the precision is 0. -/
theorem C55_no_fraction (s : Str) (h : '.' ∉ s) : inferTimelikePrecision s = 0 := by
  simp [inferTimelikePrecision, h]

example : inferTimelikePrecision (c% "01:02:03.456 UTC") = 3 := by decide

/-- **C55.** `TIME '…'` has the type TIME of that precision, exactly as long as Trino has such a type. -/
theorem C55_time_type_partial (whole frac zone : Str) (hf : ∀ c ∈ frac, c ≠ '.' ∧ c ≠ ' ')
    (hz : ∀ c ∈ zone, c ≠ '.') (hs : zone = [] ∨ ∃ z, zone = ' ' :: z) (t : Ty) :
    (Expr.typeCtor (whole ++ '.' :: frac ++ zone) (c% "TIME")).check = .ok t ↔ t = .time (some frac.length) false ∧ frac.length ≤ 12 := by
  have e : (Expr.typeCtor (whole ++ '.' :: frac ++ zone) (c% "TIME")).check =
      if 0 ≤ inferTimelikePrecision (whole ++ '.' :: frac ++ zone) ∧ inferTimelikePrecision (whole ++ '.' :: frac ++ zone) ≤ 12 then
        .ok (.time (some (inferTimelikePrecision (whole ++ '.' :: frac ++ zone))) false) else .error .assertion := rfl
  rw [e, C55_fraction_digits whole frac zone hf hz hs]
  by_cases h : frac.length ≤ 12
  · rw [if_pos ⟨by omega, by omega⟩]
    exact ⟨fun k => ⟨(Except.ok.inj k).symm, h⟩, fun k => by rw [k.1]⟩
  · rw [if_neg (by omega)]
    exact Iff.intro (fun k => by cases k) (fun k => absurd k.2 h)

/-- **C55.** Without a dot it is `TIME(0)`. -/
theorem C55_time_whole_partial (s : Str) (h : '.' ∉ s) : (Expr.typeCtor s (c% "TIME")).check = .ok (.time (some 0) false) := by
  have e : (Expr.typeCtor s (c% "TIME")).check =
      if 0 ≤ inferTimelikePrecision s ∧ inferTimelikePrecision s ≤ 12 then
        .ok (.time (some (inferTimelikePrecision s)) false) else .error .assertion := rfl
  rw [e, C55_no_fraction s h]
  rfl

/-- The precision of `TIMESTAMP '…'` is inferred and then lost: whatever the text, the type is that of the
bare word TIMESTAMP. -/
theorem C55_timestamp_precision_lost (s : Str) (t : Ty) (h : (Expr.typeCtor s (c% "TIMESTAMP")).check = .ok t) :
    mkType (c% "TIMESTAMP") [] = .ok t := by
  have e : (Expr.typeCtor s (c% "TIMESTAMP")).check =
      if 0 ≤ inferTimelikePrecision s ∧ inferTimelikePrecision s ≤ 12 then mkType (c% "TIMESTAMP") [] else .error .assertion := by
    show (do let _ ← mkType (c% "TIMESTAMP") [(c% "precision", .int (inferTimelikePrecision s))]; mkType (c% "TIMESTAMP") []) = _
    have : mkType (c% "TIMESTAMP") [(c% "precision", .int (inferTimelikePrecision s))] =
      if 0 ≤ inferTimelikePrecision s ∧ inferTimelikePrecision s ≤ 12 then
        .ok (.timestamp (some (inferTimelikePrecision s)) false) else .error .assertion := rfl
    rw [this]
    split <;> rfl
  rw [e] at h
  split at h
  · exact h
  · exact nomatch h

/-- So a text of six digits gets none. -/
theorem C55_timestamp_false : (Expr.typeCtor (c% "2020-01-01 01:02:03.456789") (c% "TIMESTAMP")).check = .ok (.timestamp none false) := by
  rfl

/-- An offset without a blank in front of it counts as part of the fraction. -/
theorem C55_zone_false : (Expr.typeCtor (c% "01:02:03.456+01:00") (c% "TIME")).check = .ok (.time (some 9) false) := by rfl

end Treeno.Props
