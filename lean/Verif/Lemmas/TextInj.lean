import Verif.Lemmas.Digits
import Verif.Lemmas.ObjInj
/-! # Different numbers and types have different texts -/
namespace Treeno

/-- A text is determined up to the first character outside a class. -/
theorem split_at {p : Char → Bool} : ∀ {a b x y : Str}, a ++ x = b ++ y → (∀ c ∈ a, p c = true) → (∀ c ∈ b, p c = true) →
    (∀ c ∈ x.head?, p c = false) → (∀ c ∈ y.head?, p c = false) → a = b ∧ x = y
  | [], [], _, _, h, _, _, _, _ => ⟨rfl, h⟩
  | [], c :: b, x, y, h, _, hb, hx, _ => by
    have h' : x = c :: (b ++ y) := h
    have h1 := hx c (by rw [h']; rfl)
    rw [hb c List.mem_cons_self] at h1
    exact nomatch h1
  | c :: a, [], x, y, h, ha, _, _, hy => by
    have h' : y = c :: (a ++ x) := h.symm
    have h1 := hy c (by rw [h']; rfl)
    rw [ha c List.mem_cons_self] at h1
    exact nomatch h1
  | c :: a, d :: b, x, y, h, ha, hb, hx, hy => by
    obtain ⟨h0, h1⟩ := List.cons.inj (show c :: (a ++ x) = d :: (b ++ y) from h)
    obtain ⟨rfl, h2⟩ := split_at h1 (fun c k => ha c (List.mem_cons_of_mem _ k)) (fun c k => hb c (List.mem_cons_of_mem _ k)) hx hy
    exact ⟨by rw [h0], h2⟩

/-! ## Integers -/

def numChar (c : Char) : Bool := isDigit c || c == '-'
theorem intStr_chars (n : Int) : ∀ c ∈ intStr n, numChar c = true := by
  intro c h
  cases n with
  | ofNat n => simp [numChar, natStr_digits n c h]
  | negSucc n =>
    rcases List.mem_cons.mp h with rfl | h
    · rfl
    · simp [numChar, natStr_digits _ c h]
theorem natStr_not_minus (n : Nat) (r : Str) : natStr n ≠ '-' :: r := by
  intro h
  have := natStr_digits n '-' (by rw [h]; exact List.mem_cons_self)
  exact absurd this (by decide)
theorem intStr_inj {a b : Int} (h : intStr a = intStr b) : a = b := by
  cases a with
  | ofNat a => cases b with
    | ofNat b => rw [natStr_inj (show natStr a = natStr b from h)]
    | negSucc b => exact absurd h (natStr_not_minus _ _)
  | negSucc a => cases b with
    | ofNat b => exact absurd h.symm (natStr_not_minus _ _)
    | negSucc b => rw [Nat.succ.inj (natStr_inj (List.cons.inj h).2)]
theorem intStr_split {a b : Int} {x y : Str} (h : intStr a ++ x = intStr b ++ y) (hx : ∀ c ∈ x.head?, numChar c = false)
    (hy : ∀ c ∈ y.head?, numChar c = false) : a = b ∧ x = y :=
  have k := split_at h (intStr_chars a) (intStr_chars b) hx hy
  ⟨intStr_inj k.1, k.2⟩

theorem plusD_inj {a b : Int} (h : plusD a = plusD b) : a = b := by
  unfold plusD at h
  have hp : ∀ (n : Int) (r : Str), intStr n ≠ '+' :: r := fun n r k => by
    have := intStr_chars n '+' (by rw [k]; exact List.mem_cons_self)
    exact absurd this (by decide)
  split at h <;> split at h
  · exact intStr_inj h
  · exact absurd h (hp _ _)
  · exact absurd h.symm (hp _ _)
  · exact intStr_inj (List.cons.inj h).2

/-! ## Decimals -/

/-- The digits of the coefficient with the point and leading zeros, `f` digits after the point. -/
def decBody (d : Dec) (dot : Int) : Str :=
  if dot ≤ 0 then c% "0" ++ (c% "." ++ List.replicate (-dot).toNat '0' ++ natStr d.coeff)
  else if dot ≥ (natStr d.coeff).length then natStr d.coeff ++ List.replicate (dot - (natStr d.coeff).length).toNat '0' ++ []
  else (natStr d.coeff).take dot.toNat ++ (c% "." ++ (natStr d.coeff).drop dot.toNat)
def decDot (d : Dec) : Int :=
  if d.exp ≤ 0 ∧ d.exp + (natStr d.coeff).length > -6 then d.exp + (natStr d.coeff).length else 1
def decExp (d : Dec) : Str :=
  if d.exp + (natStr d.coeff).length = decDot d then [] else 'E' :: plusD (d.exp + (natStr d.coeff).length - decDot d)

theorem Dec_str_eq (d : Dec) : d.str = (if d.neg then c% "-" else []) ++ (decBody d (decDot d) ++ decExp d) := by
  unfold Dec.str decBody decExp
  simp only [show (if d.exp ≤ 0 ∧ d.exp + ((natStr d.coeff).length : Int) > -6 then d.exp + ((natStr d.coeff).length : Int) else 1) = decDot d from rfl]
  by_cases h0 : decDot d ≤ 0
  · simp only [if_pos h0, List.append_assoc]
  · by_cases h1 : decDot d ≥ (natStr d.coeff).length
    · simp only [if_neg h0, if_pos h1, List.append_assoc]
    · simp only [if_neg h0, if_neg h1, List.append_assoc]

/-- The number of digits after the point. -/
def fracLen (s : Str) : Nat := ((s.dropWhile (· != '.')).drop 1).length
def pointless (s : Str) : Str := s.filter (· != '.')

theorem digit_not {c : Char} (h : isDigit c = true) : (c != '.') = true := by
  cases hc : c == '.' with
  | false => simp [bne, hc]
  | true => rw [beq_iff_eq.mp hc] at h; exact absurd h (by decide)

theorem fracLen_none {s : Str} (h : ∀ c ∈ s, isDigit c = true) : fracLen s = 0 := by
  have : s.dropWhile (· != '.') = [] := by
    induction s with
    | nil => rfl
    | cons c s ih =>
      rw [List.dropWhile_cons_of_pos (p := (· != '.')) (digit_not (h c List.mem_cons_self))]
      exact ih (fun c k => h c (List.mem_cons_of_mem _ k))
  simp [fracLen, this]
theorem fracLen_some {s t : Str} (h : ∀ c ∈ s, isDigit c = true) : fracLen (s ++ (c% "." ++ t)) = t.length := by
  have : (s ++ (c% "." ++ t)).dropWhile (· != '.') = '.' :: t := by
    rw [List.dropWhile_append_of_pos (fun c k => digit_not (h c k))]; rfl
  unfold fracLen; rw [this]; rfl
theorem pointless_digits {s : Str} (h : ∀ c ∈ s, isDigit c = true) : pointless s = s :=
  List.filter_eq_self.mpr (fun c k => digit_not (h c k))
theorem pointless_some {s t : Str} (h : ∀ c ∈ s, isDigit c = true) (h' : ∀ c ∈ t, isDigit c = true) :
    pointless (s ++ (c% "." ++ t)) = s ++ t := by
  unfold pointless
  rw [List.filter_append]
  show pointless s ++ pointless t = _
  rw [pointless_digits h, pointless_digits h']

theorem zeros_digits (n : Nat) : ∀ c ∈ List.replicate n '0', isDigit c = true := fun c h => by
  rw [List.eq_of_mem_replicate h]; rfl
theorem zeros_val (n : Nat) : digitsVal (List.replicate n '0') = 0 := by
  induction n with
  | zero => rfl
  | succ n ih => exact ih
theorem zeros_app (n : Nat) (s : Str) : digitsVal (List.replicate n '0' ++ s) = digitsVal s := by
  show digitsValAcc 0 _ = _
  rw [digitsValAcc_append]
  show digitsValAcc (digitsVal _) s = _
  rw [zeros_val]; rfl

theorem decBody_spec (d : Dec) : digitsVal (pointless (decBody d (decDot d))) = d.coeff ∧
    (fracLen (decBody d (decDot d)) : Int) = (natStr d.coeff).length - decDot d := by
  have hd := natStr_digits d.coeff
  have hl : 0 < (natStr d.coeff).length := List.length_pos_iff.mpr (natStr_ne_nil _)
  unfold decBody
  split
  · rename_i h
    have h0 : ∀ c ∈ (c% "0"), isDigit c = true := by decide
    have h1 : ∀ c ∈ List.replicate (-decDot d).toNat '0' ++ natStr d.coeff, isDigit c = true := fun c k => by
      rcases List.mem_append.mp k with k | k
      · exact zeros_digits _ c k
      · exact hd c k
    rw [List.append_assoc (c% ".")]
    constructor
    · rw [pointless_some h0 h1]
      show digitsVal (List.replicate 1 '0' ++ _) = _
      rw [zeros_app, zeros_app, natStr_val]
    · rw [fracLen_some h0]
      simp only [List.length_append, List.length_replicate]
      omega
  · split
    · rename_i h h'
      have hz : decDot d = (natStr d.coeff).length := by
        unfold decDot at h h' ⊢
        split <;> rename_i k
        · rw [if_pos k] at h'; omega
        · rw [if_neg k] at h'; omega
      have e : (decDot d - (natStr d.coeff).length).toNat = 0 := by omega
      rw [e, List.append_nil]
      show digitsVal (pointless (natStr d.coeff ++ [])) = _ ∧ (fracLen (natStr d.coeff ++ []) : Int) = _
      rw [List.append_nil, pointless_digits hd, natStr_val, fracLen_none hd]
      exact ⟨rfl, by omega⟩
    · rename_i h h'
      have h0 : ∀ c ∈ (natStr d.coeff).take (decDot d).toNat, isDigit c = true := fun c k => hd c (List.mem_of_mem_take k)
      have h1 : ∀ c ∈ (natStr d.coeff).drop (decDot d).toNat, isDigit c = true := fun c k => hd c (List.mem_of_mem_drop k)
      rw [pointless_some h0 h1, fracLen_some h0, List.take_append_drop, natStr_val, List.length_drop]
      exact ⟨rfl, by omega⟩

def bodyChar (c : Char) : Bool := isDigit c || c == '.'
theorem decBody_chars (d : Dec) (dot : Int) : ∀ c ∈ decBody d dot, bodyChar c = true := by
  have hd := natStr_digits d.coeff
  intro c h
  unfold decBody at h
  have hz : ∀ {n}, c ∈ List.replicate n '0' → bodyChar c = true := fun k => by simp [bodyChar, zeros_digits _ c k]
  have hn : c ∈ natStr d.coeff → bodyChar c = true := fun k => by simp [bodyChar, hd c k]
  split at h
  · rcases List.mem_append.mp h with h | h
    · simp at h; subst h; rfl
    · rcases List.mem_append.mp h with h | h
      · rcases List.mem_append.mp h with h | h
        · simp at h; subst h; rfl
        · exact hz h
      · exact hn h
  · split at h
    · rw [List.append_nil] at h
      rcases List.mem_append.mp h with h | h
      · exact hn h
      · exact hz h
    · rcases List.mem_append.mp h with h | h
      · exact hn (List.mem_of_mem_take h)
      · rcases List.mem_append.mp h with h | h
        · simp at h; subst h; rfl
        · exact hn (List.mem_of_mem_drop h)

theorem decBody_ne (d : Dec) (dot : Int) : decBody d dot ≠ [] := by
  have hne := natStr_ne_nil d.coeff
  unfold decBody
  split
  · exact nofun
  · split
    · intro h
      rw [List.append_nil] at h
      exact hne (List.append_eq_nil_iff.mp h).1
    · intro h
      exact nomatch (List.append_eq_nil_iff.mp (List.append_eq_nil_iff.mp h).2).1

theorem decBody_minus (d : Dec) (dot : Int) (x r : Str) : decBody d dot ++ x ≠ '-' :: r := by
  intro h
  cases hb : decBody d dot with
  | nil => exact decBody_ne _ _ hb
  | cons c s =>
    rw [hb] at h
    have := decBody_chars d dot c (by rw [hb]; exact List.mem_cons_self)
    rw [(List.cons.inj h).1] at this
    exact absurd this (by decide)

theorem decExp_head (d : Dec) : ∀ c ∈ (decExp d).head?, bodyChar c = false := by
  intro c h
  unfold decExp at h
  split at h
  · exact nomatch h
  · rw [← Option.some.inj h]; rfl

theorem decExp_inj {a b : Dec} (h : decExp a = decExp b) :
    a.exp + (natStr a.coeff).length - decDot a = b.exp + (natStr b.coeff).length - decDot b := by
  unfold decExp at h
  split at h <;> split at h
  · omega
  · exact nomatch h
  · exact nomatch h
  · exact plusD_inj (List.cons.inj h).2

theorem Dec_str_inj {a b : Dec} (h : a.str = b.str) : a = b := by
  rw [Dec_str_eq, Dec_str_eq] at h
  have key : a.neg = b.neg ∧ decBody a (decDot a) ++ decExp a = decBody b (decDot b) ++ decExp b := by
    cases ha : a.neg <;> cases hb : b.neg <;> rw [ha, hb] at h
    · exact ⟨rfl, h⟩
    · exact absurd h (decBody_minus _ _ _ _)
    · exact absurd h.symm (decBody_minus _ _ _ _)
    · exact ⟨rfl, (List.cons.inj h).2⟩
  obtain ⟨h1, h2⟩ := split_at key.2 (decBody_chars _ _) (decBody_chars _ _) (decExp_head _) (decExp_head _)
  have sa := decBody_spec a
  have sb := decBody_spec b
  rw [h1] at sa
  have hc : a.coeff = b.coeff := sa.1.symm.trans sb.1
  have he := decExp_inj h2
  have hf := sa.2.symm.trans sb.2
  obtain ⟨an, ac, ae⟩ := a
  obtain ⟨bn, bc, be⟩ := b
  have he' : ae = be := by
    simp only at he hf
    omega
  rw [show an = bn from key.1, show ac = bc from hc, he']

/-! ## Types -/

def tyWord (c : Char) : Bool := !(c == '(' || c == ' ' || c == ',' || c == ')')

/-- What comes after the name. -/
def tyRest : Ty → Str
  | .simple _ => []
  | .decimal p s => '(' :: (intStr p ++ ',' :: (intStr s ++ [')']))
  | .varchar none => []
  | .varchar (some n) => '(' :: (intStr n ++ [')'])
  | .char n => '(' :: (intStr n ++ [')'])
  | .time p tz => timeSuffix p tz
  | .timestamp p tz => timeSuffix p tz
  | .interval k => ' ' :: (k.fromS ++ c% " TO " ++ k.toS)
  | .array t => '(' :: (t.sql ++ [')'])
  | .map a b => '(' :: (a.sql ++ ',' :: (b.sql ++ [')']))
  | .row l => '(' :: (join (c% ",") (Ty.sqlList l) ++ [')'])
  | .qdigest t => '(' :: (t.sql ++ [')'])

theorem Ty_sql_rest (t : Ty) : t.sql = t.typeName ++ tyRest t := by
  cases t
  case simple s => exact (List.append_nil _).symm
  case varchar n => cases n <;> simp [Ty.sql, Ty.typeName, tyRest]
  case time => rfl
  case timestamp => rfl
  all_goals simp [Ty.sql, Ty.typeName, tyRest]

theorem typeName_chars (t : Ty) : ∀ c ∈ t.typeName, tyWord c = true := by
  cases t
  case simple s => cases s <;> decide
  all_goals (dsimp only [Ty.typeName]; decide)
theorem typeName_ne (t : Ty) : t.typeName ≠ [] := by
  cases t
  case simple s => cases s <;> exact nofun
  all_goals exact nofun

/-- What may follow a type. -/
def TyEnd (r : Str) : Prop := ∀ c ∈ r.head?, c = ',' ∨ c = ')'
theorem TyEnd.comma (r : Str) : TyEnd (',' :: r) := fun _ h => .inl (Option.some.inj h).symm
theorem TyEnd.close (r : Str) : TyEnd (')' :: r) := fun _ h => .inr (Option.some.inj h).symm
theorem TyEnd.nil : TyEnd [] := fun _ h => nomatch h
theorem TyEnd.not {c : Char} {r : Str} (h : TyEnd (c :: r)) (hc : c ≠ ',') (hc' : c ≠ ')') : False := by
  rcases h c rfl with h | h
  · exact hc h
  · exact hc' h

theorem tyRest_head (t : Ty) (r : Str) (h : TyEnd r) : ∀ c ∈ (tyRest t ++ r).head?, tyWord c = false := by
  have hr : ∀ c ∈ r.head?, tyWord c = false := fun c k => by
    rcases h c k with rfl | rfl <;> rfl
  have ht : ∀ p tz, ∀ c ∈ (timeSuffix p tz ++ r).head?, tyWord c = false := fun p tz c k => by
    cases p with
    | none => cases tz with
      | false => exact hr c k
      | true => rw [← Option.some.inj k]; rfl
    | some p => rw [← Option.some.inj k]; rfl
  intro c k
  cases t
  case simple => exact hr c k
  case varchar n => cases n with
    | none => exact hr c k
    | some n => rw [← Option.some.inj k]; rfl
  case time p tz => exact ht p tz c k
  case timestamp p tz => exact ht p tz c k
  all_goals (rw [← Option.some.inj k]; rfl)

theorem timeSuffix_inj {p p' : Option Int} {tz tz' : Bool} {r r' : Str} (h : timeSuffix p tz ++ r = timeSuffix p' tz' ++ r')
    (hr : TyEnd r) (hr' : TyEnd r') : p = p' ∧ tz = tz' ∧ r = r' := by
  have z : ∀ {tz tz' : Bool} {r r' : Str}, (if tz then c% " WITH TIME ZONE" else []) ++ r = (if tz' then c% " WITH TIME ZONE" else []) ++ r' →
      TyEnd r → TyEnd r' → tz = tz' ∧ r = r' := fun {tz tz' r r'} h hr hr' => by
    cases tz <;> cases tz'
    · exact ⟨rfl, h⟩
    · have h' : r = ' ' :: (c% "WITH TIME ZONE" ++ r') := h
      rw [h'] at hr; exact (hr.not (by decide) (by decide)).elim
    · have h' : r' = ' ' :: (c% "WITH TIME ZONE" ++ r) := h.symm
      rw [h'] at hr'; exact (hr'.not (by decide) (by decide)).elim
    · exact ⟨rfl, List.append_cancel_left h⟩
  have nz : ∀ {tz : Bool} {r s : Str}, (if tz then c% " WITH TIME ZONE" else []) ++ r = '(' :: s → TyEnd r → False := fun {tz r s} h hr => by
    cases tz
    · have h' : r = '(' :: s := h
      rw [h'] at hr; exact hr.not (by decide) (by decide)
    · exact absurd (List.cons.inj h).1 (by decide)
  cases p with
  | none => cases p' with
    | none => exact ⟨rfl, z h hr hr'⟩
    | some p' =>
      refine (nz (tz := tz) (s := ?_) ?_ hr).elim
      rotate_left
      · rw [show timeSuffix none tz = (if tz then c% " WITH TIME ZONE" else []) from rfl] at h
        rw [h]; rfl
  | some p => cases p' with
    | none =>
      refine (nz (tz := tz') (s := ?_) ?_ hr').elim
      rotate_left
      · rw [show timeSuffix none tz' = (if tz' then c% " WITH TIME ZONE" else []) from rfl] at h
        rw [← h]; rfl
    | some p' =>
      have h1 : intStr p ++ (')' :: ((if tz then c% " WITH TIME ZONE" else []) ++ r)) = intStr p' ++ (')' :: ((if tz' then c% " WITH TIME ZONE" else []) ++ r')) := by
        have := (List.cons.inj (show '(' :: _ = '(' :: _ from h)).2
        simpa using this
      obtain ⟨rfl, h2⟩ := intStr_split h1 (fun c k => by rw [← Option.some.inj k]; rfl) (fun c k => by rw [← Option.some.inj k]; rfl)
      exact ⟨rfl, z (List.cons.inj h2).2 hr hr'⟩

theorem Ty_word (t : Ty) (r : Str) : ∃ c s, t.sql ++ r = c :: s ∧ tyWord c = true := by
  rw [Ty_sql_rest]
  cases h : t.typeName with
  | nil => exact absurd h (typeName_ne t)
  | cons c s => exact ⟨c, _, rfl, typeName_chars t c (by rw [h]; exact List.mem_cons_self)⟩

theorem Ty_front {a b : Ty} {r r' : Str} (h : a.sql ++ r = b.sql ++ r') (hr : TyEnd r) (hr' : TyEnd r') :
    a.typeName = b.typeName ∧ tyRest a ++ r = tyRest b ++ r' := by
  rw [Ty_sql_rest a, Ty_sql_rest b, List.append_assoc, List.append_assoc] at h
  exact split_at h (typeName_chars a) (typeName_chars b) (tyRest_head a r hr) (tyRest_head b r' hr')

theorem one_arg {n n' : Int} {r r' : Str} (h : '(' :: (intStr n ++ [')']) ++ r = '(' :: (intStr n' ++ [')']) ++ r') : n = n' ∧ r = r' := by
  have h1 : intStr n ++ ([')'] ++ r) = intStr n' ++ ([')'] ++ r') := by
    have := (List.cons.inj h).2
    rw [← List.append_assoc, ← List.append_assoc]; exact this
  obtain ⟨h2, h3⟩ := intStr_split h1 (fun c k => by rw [← Option.some.inj k]; rfl) (fun c k => by rw [← Option.some.inj k]; rfl)
  exact ⟨h2, (List.cons.inj h3).2⟩

theorem join_sql2 (t : Ty) (u : Ty) (l : List Ty) (r : Str) :
    join (c% ",") (Ty.sqlList (t :: u :: l)) ++ r = t.sql ++ (',' :: (join (c% ",") (Ty.sqlList (u :: l)) ++ r)) := by
  show t.sql ++ c% "," ++ join (c% ",") (Ty.sqlList (u :: l)) ++ r = _
  simp

local macro "other" h:term : tactic => `(tactic| exact (Simple_name_other $h (by dsimp only [Ty.typeName]; decide)).elim)

mutual
theorem Ty_text : ∀ (a b : Ty) (r r' : Str), a.sql ++ r = b.sql ++ r' → TyEnd r → TyEnd r' → a = b ∧ r = r'
  | .simple s, b, r, r', h, hr, hr' => by
    obtain ⟨hn, h⟩ := Ty_front h hr hr'
    cases b with
    | simple s' => exact ⟨by rw [Simple_name_inj hn], h⟩
    | _ => other hn
  | .decimal p s, b, r, r', h, hr, hr' => by
    obtain ⟨hn, h⟩ := Ty_front h hr hr'
    cases b with
    | decimal p' s' =>
      have h1 : intStr p ++ (',' :: (intStr s ++ (')' :: r))) = intStr p' ++ (',' :: (intStr s' ++ (')' :: r'))) := by
        have := (List.cons.inj (show '(' :: _ = '(' :: _ from h)).2
        simpa using this
      obtain ⟨rfl, h2⟩ := intStr_split h1 (fun c k => by rw [← Option.some.inj k]; rfl) (fun c k => by rw [← Option.some.inj k]; rfl)
      obtain ⟨rfl, h3⟩ := intStr_split (List.cons.inj h2).2 (fun c k => by rw [← Option.some.inj k]; rfl) (fun c k => by rw [← Option.some.inj k]; rfl)
      exact ⟨rfl, (List.cons.inj h3).2⟩
    | simple s' => other hn.symm
    | _ => exact absurd hn (by dsimp only [Ty.typeName]; decide)
  | .varchar n, b, r, r', h, hr, hr' => by
    obtain ⟨hn, h⟩ := Ty_front h hr hr'
    cases b with
    | varchar n' =>
      cases n with
      | none => cases n' with
        | none => exact ⟨rfl, h⟩
        | some n' =>
          have h' : r = '(' :: (intStr n' ++ [')'] ++ r') := h
          rw [h'] at hr; exact (hr.not (by decide) (by decide)).elim
      | some n => cases n' with
        | none =>
          have h' : r' = '(' :: (intStr n ++ [')'] ++ r) := h.symm
          rw [h'] at hr'; exact (hr'.not (by decide) (by decide)).elim
        | some n' =>
          obtain ⟨rfl, h2⟩ := one_arg h
          exact ⟨rfl, h2⟩
    | simple s' => other hn.symm
    | _ => exact absurd hn (by dsimp only [Ty.typeName]; decide)
  | .char n, b, r, r', h, hr, hr' => by
    obtain ⟨hn, h⟩ := Ty_front h hr hr'
    cases b with
    | char n' => obtain ⟨rfl, h2⟩ := one_arg h; exact ⟨rfl, h2⟩
    | simple s' => other hn.symm
    | _ => exact absurd hn (by dsimp only [Ty.typeName]; decide)
  | .time p tz, b, r, r', h, hr, hr' => by
    obtain ⟨hn, h⟩ := Ty_front h hr hr'
    cases b with
    | time p' tz' => obtain ⟨rfl, rfl, h2⟩ := timeSuffix_inj h hr hr'; exact ⟨rfl, h2⟩
    | simple s' => other hn.symm
    | _ => exact absurd hn (by dsimp only [Ty.typeName]; decide)
  | .timestamp p tz, b, r, r', h, hr, hr' => by
    obtain ⟨hn, h⟩ := Ty_front h hr hr'
    cases b with
    | timestamp p' tz' => obtain ⟨rfl, rfl, h2⟩ := timeSuffix_inj h hr hr'; exact ⟨rfl, h2⟩
    | simple s' => other hn.symm
    | _ => exact absurd hn (by dsimp only [Ty.typeName]; decide)
  | .interval k, b, r, r', h, hr, hr' => by
    obtain ⟨hn, h⟩ := Ty_front h hr hr'
    cases b with
    | interval k' =>
      cases k <;> cases k'
      · exact ⟨rfl, List.append_cancel_left h⟩
      · exact absurd (congrArg (fun s : Str => s.take 3) h) (fun k => absurd (show c% " YE" = c% " DA" from k) (by decide))
      · exact absurd (congrArg (fun s : Str => s.take 3) h) (fun k => absurd (show c% " DA" = c% " YE" from k) (by decide))
      · exact ⟨rfl, List.append_cancel_left h⟩
    | simple s' => other hn.symm
    | _ => exact absurd hn (by dsimp only [Ty.typeName]; decide)
  | .array t, b, r, r', h, hr, hr' => by
    obtain ⟨hn, h⟩ := Ty_front h hr hr'
    cases b with
    | array t' =>
      have h1 : t.sql ++ ([')'] ++ r) = t'.sql ++ ([')'] ++ r') := by
        have := (List.cons.inj h).2
        rw [← List.append_assoc, ← List.append_assoc]; exact this
      obtain ⟨rfl, h2⟩ := Ty_text t t' _ _ h1 (.close _) (.close _)
      exact ⟨rfl, (List.cons.inj h2).2⟩
    | simple s' => other hn.symm
    | _ => exact absurd hn (by dsimp only [Ty.typeName]; decide)
  | .map f t, b, r, r', h, hr, hr' => by
    obtain ⟨hn, h⟩ := Ty_front h hr hr'
    cases b with
    | map f' t' =>
      have h1 : f.sql ++ (',' :: (t.sql ++ (')' :: r))) = f'.sql ++ (',' :: (t'.sql ++ (')' :: r'))) := by
        have := (List.cons.inj (show '(' :: _ = '(' :: _ from h)).2
        simpa using this
      obtain ⟨rfl, h2⟩ := Ty_text f f' _ _ h1 (.comma _) (.comma _)
      obtain ⟨rfl, h3⟩ := Ty_text t t' _ _ (List.cons.inj h2).2 (.close _) (.close _)
      exact ⟨rfl, (List.cons.inj h3).2⟩
    | simple s' => other hn.symm
    | _ => exact absurd hn (by dsimp only [Ty.typeName]; decide)
  | .row l, b, r, r', h, hr, hr' => by
    obtain ⟨hn, h⟩ := Ty_front h hr hr'
    cases b with
    | row l' =>
      have h1 : join (c% ",") (Ty.sqlList l) ++ ([')'] ++ r) = join (c% ",") (Ty.sqlList l') ++ ([')'] ++ r') := by
        have := (List.cons.inj h).2
        rw [← List.append_assoc, ← List.append_assoc]; exact this
      obtain ⟨rfl, h2⟩ := Tys_text l l' _ _ h1
      exact ⟨rfl, h2⟩
    | simple s' => other hn.symm
    | _ => exact absurd hn (by dsimp only [Ty.typeName]; decide)
  | .qdigest t, b, r, r', h, hr, hr' => by
    obtain ⟨hn, h⟩ := Ty_front h hr hr'
    cases b with
    | qdigest t' =>
      have h1 : t.sql ++ ([')'] ++ r) = t'.sql ++ ([')'] ++ r') := by
        have := (List.cons.inj h).2
        rw [← List.append_assoc, ← List.append_assoc]; exact this
      obtain ⟨rfl, h2⟩ := Ty_text t t' _ _ h1 (.close _) (.close _)
      exact ⟨rfl, (List.cons.inj h2).2⟩
    | simple s' => other hn.symm
    | _ => exact absurd hn (by dsimp only [Ty.typeName]; decide)
theorem Tys_text : ∀ (l l' : List Ty) (r r' : Str),
    join (c% ",") (Ty.sqlList l) ++ (')' :: r) = join (c% ",") (Ty.sqlList l') ++ (')' :: r') → l = l' ∧ r = r'
  | [], [], r, r', h => ⟨rfl, (List.cons.inj h).2⟩
  | [], [t], r, r', h => by
    obtain ⟨c, s, e, hc⟩ := Ty_word t (')' :: r')
    have h' : ')' :: r = t.sql ++ (')' :: r') := h
    rw [e] at h'
    rw [← (List.cons.inj h').1] at hc
    exact absurd hc (by decide)
  | [], t :: u :: l, r, r', h => by
    obtain ⟨c, s, e, hc⟩ := Ty_word t (',' :: (join (c% ",") (Ty.sqlList (u :: l)) ++ (')' :: r')))
    rw [join_sql2, e] at h
    have h' : ')' :: r = c :: s := h
    rw [← (List.cons.inj h').1] at hc
    exact absurd hc (by decide)
  | [t], [], r, r', h => by
    obtain ⟨c, s, e, hc⟩ := Ty_word t (')' :: r)
    have h' : t.sql ++ (')' :: r) = ')' :: r' := h
    rw [e] at h'
    rw [(List.cons.inj h').1] at hc
    exact absurd hc (by decide)
  | t :: u :: l, [], r, r', h => by
    obtain ⟨c, s, e, hc⟩ := Ty_word t (',' :: (join (c% ",") (Ty.sqlList (u :: l)) ++ (')' :: r)))
    rw [join_sql2, e] at h
    have h' : c :: s = ')' :: r' := h
    rw [(List.cons.inj h').1] at hc
    exact absurd hc (by decide)
  | [t], [t'], r, r', h => by
    obtain ⟨rfl, h2⟩ := Ty_text t t' _ _ h (.close _) (.close _)
    exact ⟨rfl, (List.cons.inj h2).2⟩
  | [t], t' :: u' :: l', r, r', h => by
    rw [join_sql2] at h
    obtain ⟨rfl, h2⟩ := Ty_text t t' _ _ h (.close _) (.comma _)
    exact absurd (List.cons.inj h2).1 (by decide)
  | t :: u :: l, [t'], r, r', h => by
    rw [join_sql2] at h
    obtain ⟨rfl, h2⟩ := Ty_text t t' _ _ h (.comma _) (.close _)
    exact absurd (List.cons.inj h2).1 (by decide)
  | t :: u :: l, t' :: u' :: l', r, r', h => by
    rw [join_sql2, join_sql2] at h
    obtain ⟨rfl, h2⟩ := Ty_text t t' _ _ h (.comma _) (.comma _)
    obtain ⟨e, h3⟩ := Tys_text (u :: l) (u' :: l') _ _ (List.cons.inj h2).2
    exact ⟨by rw [e], h3⟩
end

theorem Ty_sql_inj {a b : Ty} (h : a.sql = b.sql) : a = b :=
  (Ty_text a b [] [] (by rw [h]) .nil .nil).1

end Treeno
