import Verif.Unicode
import Verif.Spec.UnicodeSpec
import Verif.Lemmas.LexName
/-!
# Lemmas about string literals with Unicode escapes
-/
set_option autoImplicit false
namespace Treeno
open Spec

/-! ## Hexadecimal digits -/

theorem hexVal_small : ∀ n : Fin 128, hexVal (Char.ofNat n.val) = digit16 (Char.ofNat n.val) := by decide +kernel

theorem place_none {c : Char} : ∀ {s : Str}, c ∉ s → place c s = none
  | [], _ => rfl
  | d :: r, h => by
    rw [place, if_neg (show ¬ c = d from fun e => h (e ▸ List.mem_cons_self)), place_none (fun m => h (List.mem_cons_of_mem _ m))]; rfl

theorem char_small {c : Char} (h : c.toNat < 128) : ∃ n : Fin 128, c = Char.ofNat n.val :=
  ⟨⟨c.toNat, h⟩, (Char.ofNat_toNat c).symm⟩

theorem digit16_large {c : Char} (h : ¬ c.toNat < 128) : digit16 c = none := by
  have h1 : c ∉ c% "0123456789abcdef" := fun m => by
    have : ∀ d ∈ c% "0123456789abcdef", d.toNat < 128 := by decide
    exact h (this c m)
  have h2 : c ∉ c% "0123456789ABCDEF" := fun m => by
    have : ∀ d ∈ c% "0123456789ABCDEF", d.toNat < 128 := by decide
    exact h (this c m)
  rw [digit16, place_none h1]
  exact place_none h2

theorem hexVal_eq (c : Char) : hexVal c = digit16 c := by
  by_cases h : c.toNat < 128
  · obtain ⟨n, rfl⟩ := char_small h
    exact hexVal_small n
  · rw [digit16_large h]
    unfold hexVal
    rw [if_neg (by omega), if_neg (by omega), if_neg (by omega)]

theorem hexNum_go (s : Str) : ∀ a, s.foldl (fun a c => a * 16 + (hexVal c).getD 0) a = a * 16 ^ s.length + number16 s := by
  induction s with
  | nil => intro a; simp [number16]
  | cons c r ih =>
    intro a
    rw [List.foldl_cons, ih, hexVal_eq, number16, List.length_cons, Nat.pow_succ, Nat.add_mul, Nat.mul_assoc, Nat.add_assoc,
      Nat.mul_comm 16]

theorem hexNum_eq (s : Str) : hexNum s = number16 s := by
  have := hexNum_go s 0
  rw [Nat.zero_mul, Nat.zero_add] at this
  exact this

theorem number16_append (a b : Str) : number16 (a ++ b) = number16 a * 16 ^ b.length + number16 b := by
  induction a with
  | nil => simp [number16]
  | cons c r ih =>
    rw [List.cons_append, number16, ih, number16, List.length_append, Nat.pow_add, Nat.add_mul, Nat.mul_assoc, Nat.add_assoc]

theorem hexC_digit : ∀ d : Fin 16, digit16 (hexC d.val) = some d.val := by decide +kernel

theorem hexStr_length (k : Nat) : ∀ n, (hexStr k n).length = k := by
  induction k with
  | zero => intro n; rfl
  | succ k ih => intro n; rw [hexStr, List.length_append, ih]; rfl

theorem hexC_mod (n : Nat) : digit16 (hexC (n % 16)) = some (n % 16) := hexC_digit ⟨n % 16, Nat.mod_lt _ (by decide)⟩

theorem hexStr_digits (k : Nat) : ∀ n, ∀ c ∈ hexStr k n, (digit16 c).isSome = true := by
  induction k with
  | zero => intro n c hc; exact nomatch hc
  | succ k ih =>
    intro n c hc
    rw [hexStr, List.mem_append, List.mem_singleton] at hc
    rcases hc with hc | rfl
    · exact ih _ c hc
    · rw [hexC_mod]; rfl

theorem hexStr_number (k : Nat) : ∀ n, n < 16 ^ k → number16 (hexStr k n) = n := by
  induction k with
  | zero => intro n h; rw [Nat.pow_zero] at h; show 0 = n; omega
  | succ k ih =>
    intro n h
    rw [hexStr, number16_append, ih (n / 16) (by rw [Nat.pow_succ] at h; omega)]
    show n / 16 * 16 ^ 1 + ((digit16 (hexC (n % 16))).getD 0 * 16 ^ 0 + 0) = n
    rw [hexC_mod]
    show n / 16 * 16 ^ 1 + (n % 16 * 16 ^ 0 + 0) = n
    omega

/-! ## Python's `replace` with one character -/

theorem replace_one (e : Char) (new s : Str) : replace [e] new s = s.flatMap (fun c => if c = e then new else [c]) := by
  rw [replace, if_neg (by simp)]
  induction s with
  | nil => rfl
  | cons c r ih =>
    rw [replaceGo, List.flatMap_cons]
    by_cases h : c = e
    · subst h
      rw [if_pos (by simp), if_pos rfl]
      show new ++ replaceGo [c] new 0 r = _
      rw [ih]
    · rw [if_neg (by simpa using fun h' => h h'.symm), if_neg h, ih]; rfl

/-! ## Decoding -/

theorem unescapeGo_skip : ∀ (a r : Str), unescapeGo a.length (a ++ r) = unescapeGo 0 r
  | [], _ => rfl
  | _ :: a, r => unescapeGo_skip a r

theorem unescapeGo_skip' {k : Nat} {a : Str} (h : a.length = k) (r : Str) : unescapeGo k (a ++ r) = unescapeGo 0 r :=
  h ▸ unescapeGo_skip a r

/-- Prepend a character to the rest. -/
def consTo (c : Char) (x : Except Err Str) : Except Err Str := x.map (c :: ·)

theorem unescape_char {c : Char} (h : c ≠ '\\') (r : Str) : unescapeGo 0 (c :: r) = consTo c (unescapeGo 0 r) := by
  rw [unescapeGo, if_neg h]
  cases unescapeGo 0 r <;> rfl

theorem hex_all (d : Str) (h : ∀ c ∈ d, (digit16 c).isSome = true) : d.all (fun c => (hexVal c).isSome) = true :=
  List.all_eq_true.2 fun c hc => by rw [hexVal_eq]; exact h c hc

theorem charAt_valid {n k : Nat} (h : n.isValidChar) : charAt n k = .ok ([Char.ofNat n], k) := by
  have h' : n < 55296 ∨ 57343 < n ∧ n < 1114112 := h
  unfold charAt
  rw [if_neg (by omega), if_neg (by omega)]

theorem codeAt_ok {k : Nat} {d : Str} (hl : d.length = k) (hd : ∀ c ∈ d, (digit16 c).isSome = true)
    (hv : (number16 d).isValidChar) (r : Str) : codeAt k (d ++ r) = .ok ([Char.ofNat (number16 d)], k + 1) := by
  have ht : (d ++ r).take k = d := by rw [← hl, List.take_left]
  rw [codeAt, ht, if_pos ⟨hl, hex_all d hd⟩, hexNum_eq, charAt_valid hv]

theorem unescape_u {d : Str} (hl : d.length = 4) (hd : ∀ c ∈ d, (digit16 c).isSome = true)
    (hv : (number16 d).isValidChar) (r : Str) :
    unescapeGo 0 ('\\' :: 'u' :: (d ++ r)) = consTo (Char.ofNat (number16 d)) (unescapeGo 0 r) := by
  have he : escapeAt ('u' :: (d ++ r)) = .ok ([Char.ofNat (number16 d)], 5) := codeAt_ok hl hd hv r
  rw [unescapeGo, if_pos rfl, he]
  show (unescapeGo 4 (d ++ r) >>= fun s => _) = _
  rw [unescapeGo_skip' hl]
  cases unescapeGo 0 r <;> rfl

theorem unescape_U {d : Str} (hl : d.length = 8) (hd : ∀ c ∈ d, (digit16 c).isSome = true)
    (hv : (number16 d).isValidChar) (r : Str) :
    unescapeGo 0 ('\\' :: 'U' :: (d ++ r)) = consTo (Char.ofNat (number16 d)) (unescapeGo 0 r) := by
  have he : escapeAt ('U' :: (d ++ r)) = .ok ([Char.ofNat (number16 d)], 9) := codeAt_ok hl hd hv r
  rw [unescapeGo, if_pos rfl, he]
  show (unescapeGo 8 (d ++ r) >>= fun s => _) = _
  rw [unescapeGo_skip' hl]
  cases unescapeGo 0 r <;> rfl

theorem char_valid (c : Char) : c.toNat.isValidChar := c.valid

/-- Encoding and decoding give back a character that is no backslash. -/
theorem unescape_raw {c : Char} (h : c ≠ '\\') (r : Str) : unescapeGo 0 (rawEscape c ++ r) = consTo c (unescapeGo 0 r) := by
  unfold rawEscape
  have hv := char_valid c
  split
  · exact unescape_char h r
  · split
    · rename_i h2
      have hn := hexStr_number 4 c.toNat h2
      have := unescape_u (hexStr_length 4 c.toNat) (hexStr_digits 4 c.toNat) (by rw [hn]; exact hv) r
      rw [hn, Char.ofNat_toNat] at this
      exact this
    · have hn := hexStr_number 8 c.toNat (by
        have h' : c.toNat < 55296 ∨ 57343 < c.toNat ∧ c.toNat < 1114112 := hv
        omega)
      have := unescape_U (hexStr_length 8 c.toNat) (hexStr_digits 8 c.toNat) (by rw [hn]; exact hv) r
      rw [hn, Char.ofNat_toNat] at this
      exact this

/-! ## The escape character -/

/-- What becomes of one character before decoding. -/
def prepC (e c : Char) : Str := if c = e then ['\\', 'u'] else rawEscape c

theorem prep_eq (e : Char) (s : Str) : (replace [e] ['\\', 'u'] s).flatMap rawEscape = s.flatMap (prepC e) := by
  rw [replace_one, List.flatMap_assoc]
  congr 1
  funext c
  unfold prepC
  split
  · rfl
  · exact List.flatMap_singleton _ _

theorem digit_small {c : Char} (h : (digit16 c).isSome = true) : c.toNat < 128 := by
  refine Decidable.byContradiction fun hn => ?_
  rw [digit16_large hn] at h
  exact nomatch h

theorem raw_digit {c : Char} (h : (digit16 c).isSome = true) : rawEscape c = [c] := by
  have := digit_small h
  exact if_pos (by omega)

theorem prep_digits {e : Char} : ∀ {d : Str}, (∀ c ∈ d, (digit16 c).isSome = true) → e ∉ d → d.flatMap (prepC e) = d
  | [], _, _ => rfl
  | c :: d, h, he => by
    rw [List.flatMap_cons, prep_digits (fun x hx => h x (List.mem_cons_of_mem _ hx)) (fun m => he (List.mem_cons_of_mem _ m)),
      prepC, if_neg (show ¬ c = e from fun e' => he (e' ▸ List.mem_cons_self)), raw_digit (h c List.mem_cons_self)]
    rfl

/-- Well-written pieces are decoded to the characters they stand for. -/
theorem unescape_pieces (e : Char) : ∀ ps : List Piece, (∀ p ∈ ps, p.Ok e) →
    unescapeGo 0 ((pieces e ps).flatMap (prepC e)) = .ok (spelled ps)
  | [], _ => rfl
  | p :: ps, h => by
    have ih := unescape_pieces e ps fun q hq => h q (List.mem_cons_of_mem _ hq)
    have hp := h p List.mem_cons_self
    show unescapeGo 0 ((p.text e ++ pieces e ps).flatMap (prepC e)) = .ok (p.value :: spelled ps)
    rw [List.flatMap_append]
    cases p with
    | char c =>
      have hp : c ≠ e ∧ c ≠ '\\' ∧ c ≠ '\'' := hp
      rw [show (Piece.text e (.char c)).flatMap (prepC e) = rawEscape c by
        show prepC e c ++ [] = _; rw [List.append_nil, prepC, if_neg hp.1], unescape_raw hp.2.1, ih]
      rfl
    | code d =>
      have hp : (d.length = 4 ∧ (∀ c ∈ d, (digit16 c).isSome = true) ∧ (number16 d).isValidChar) ∧ e ∉ d := hp
      rw [show (Piece.text e (.code d)).flatMap (prepC e) = '\\' :: 'u' :: d by
        show prepC e e ++ d.flatMap (prepC e) = _; rw [prep_digits hp.1.2.1 hp.2, prepC, if_pos rfl]; rfl]
      show unescapeGo 0 ('\\' :: 'u' :: (d ++ _)) = _
      rw [unescape_u hp.1.1 hp.1.2.1 hp.1.2.2, ih]
      rfl

/-! ## The literal -/

theorem strip_prefix (b : Str) : stripP (fun c => c == 'U' || c == '&') ('U' :: '&' :: '\'' :: (b ++ ['\''])) =
    '\'' :: (b ++ ['\'']) := by
  unfold stripP
  rw [show ('U' :: '&' :: '\'' :: (b ++ ['\''])).dropWhile (fun c => c == 'U' || c == '&') = '\'' :: (b ++ ['\'']) from rfl]
  rw [← List.cons_append, List.reverse_append]
  rw [show (['\''].reverse ++ ('\'' :: b).reverse).dropWhile (fun c => c == 'U' || c == '&') =
    ['\''].reverse ++ ('\'' :: b).reverse from rfl]
  rw [← List.reverse_append, List.reverse_reverse]

/-- The token of `U&'b'`. -/
def ustrTok (b : Str) : Tok := ⟨.ustr, 'U' :: '&' :: '\'' :: (b ++ ['\''])⟩

theorem unicodeText_eq {b : Str} {u : Option Tok} {e : Char} (he : escapeText u = .ok [e]) :
    unicodeText (ustrTok b) u = unescape ((stripC '\'' ('\'' :: (b ++ ['\'']))).flatMap (prepC e)) := by
  rw [← prep_eq, ← strip_prefix b]
  show (escapeText u >>= _) = _
  rw [he]; rfl

theorem quote_not_digit : (digit16 '\'') = none := by decide +kernel

theorem no_quote {e : Char} (he : e ≠ '\'') : ∀ ps : List Piece, (∀ p ∈ ps, p.Ok e) → '\'' ∉ pieces e ps
  | [], _, h => nomatch h
  | p :: ps, hp, h => by
    have h : '\'' ∈ p.text e ++ pieces e ps := h
    rcases List.mem_append.1 h with h | h
    · have hp := hp p List.mem_cons_self
      cases p with
      | char c =>
        have hp : c ≠ e ∧ c ≠ '\\' ∧ c ≠ '\'' := hp
        exact hp.2.2 (List.mem_singleton.1 h).symm
      | code d =>
        have hp : (d.length = 4 ∧ (∀ c ∈ d, (digit16 c).isSome = true) ∧ (number16 d).isValidChar) ∧ e ∉ d := hp
        rcases List.mem_cons.1 h with h | h
        · exact he h.symm
        · have := hp.1.2.1 _ h
          rw [quote_not_digit] at this
          exact nomatch this
    · exact no_quote he ps (fun q hq => hp q (List.mem_cons_of_mem _ hq)) h

/-- Well-written literals stand for what they spell. -/
theorem unicodeText_pieces {u : Option Tok} {e : Char} (he : escapeText u = .ok [e]) (hq : e ≠ '\'') (ps : List Piece)
    (h : ∀ p ∈ ps, p.Ok e) : unicodeText (ustrTok (pieces e ps)) u = .ok (spelled ps) := by
  rw [unicodeText_eq he, show '\'' :: (pieces e ps ++ ['\'']) = ['\''] ++ pieces e ps ++ ['\''] from rfl,
    stripC_quoted '\'' _ (no_quote hq ps h)]
  exact unescape_pieces e ps h

/-! ## Exactly the texts that are decoded, with the backslash as escape character -/

theorem take_hex {e : Char} (hne : e = '\\') : ∀ (k : Nat) (b : Str), ((b.flatMap (prepC e)).take k).length = k →
    ((b.flatMap (prepC e)).take k).all (fun c => (hexVal c).isSome) = true →
    ∃ d r, b = d ++ r ∧ d.length = k ∧ (∀ c ∈ d, (digit16 c).isSome = true) ∧ e ∉ d
  | 0, b, _, _ => ⟨[], b, rfl, rfl, fun _ h => (nomatch h), fun h => nomatch h⟩
  | k + 1, [], h, _ => nomatch h
  | k + 1, c :: b, hl, ha => by
    rw [List.flatMap_cons] at hl ha
    have hb : hexVal '\\' = none := by decide +kernel
    have key : prepC e c = [c] ∧ (hexVal c).isSome = true ∧ c ≠ e := by
      unfold prepC rawEscape at ha ⊢
      split at ha
      · rw [List.cons_append, List.take_succ_cons, List.all_cons, hb] at ha; exact nomatch ha
      · rename_i hc
        split at ha
        · rename_i h1
          rw [if_neg hc, if_pos h1]
          rw [List.cons_append, List.take_succ_cons, List.all_cons, Bool.and_eq_true] at ha
          exact ⟨rfl, ha.1, hc⟩
        · split at ha <;>
            (rw [List.cons_append, List.take_succ_cons, List.all_cons, hb] at ha; exact nomatch ha)
    rw [key.1] at hl ha
    rw [List.cons_append, List.nil_append, List.take_succ_cons] at hl ha
    obtain ⟨d, r, h1, h2, h3, h4⟩ := take_hex hne k b (by simpa using hl) (by rw [List.all_cons, Bool.and_eq_true] at ha; exact ha.2)
    refine ⟨c :: d, r, by rw [h1]; rfl, by rw [List.length_cons, h2], ?_, ?_⟩
    · intro x hx
      rcases List.mem_cons.1 hx with rfl | hx
      · rw [← hexVal_eq]; exact key.2.1
      · exact h3 x hx
    · intro hx
      rcases List.mem_cons.1 hx with hx | hx
      · exact key.2.2 hx.symm
      · exact h4 hx

theorem backslash_not_digit : (digit16 '\\') = none := by decide +kernel

theorem unescape_fine : ∀ ps : List Piece, (∀ p ∈ ps, p.Fine) →
    unescapeGo 0 ((pieces '\\' ps).flatMap (prepC '\\')) = .ok (spelled ps)
  | [], _ => rfl
  | p :: ps, h => by
    have ih := unescape_fine ps fun q hq => h q (List.mem_cons_of_mem _ hq)
    have hp := h p List.mem_cons_self
    show unescapeGo 0 ((p.text '\\' ++ pieces '\\' ps).flatMap (prepC '\\')) = .ok (p.value :: spelled ps)
    rw [List.flatMap_append]
    cases p with
    | char c =>
      have hp : c ≠ '\\' := hp
      rw [show (Piece.text '\\' (.char c)).flatMap (prepC '\\') = rawEscape c by
        show prepC '\\' c ++ [] = _; rw [List.append_nil, prepC, if_neg hp], unescape_raw hp, ih]
      rfl
    | code d =>
      have hp : d.length = 4 ∧ (∀ c ∈ d, (digit16 c).isSome = true) ∧ (number16 d).isValidChar := hp
      have hd : '\\' ∉ d := fun m => by have := hp.2.1 _ m; rw [backslash_not_digit] at this; exact nomatch this
      rw [show (Piece.text '\\' (.code d)).flatMap (prepC '\\') = '\\' :: 'u' :: d by
        show prepC '\\' '\\' ++ d.flatMap (prepC '\\') = _; rw [prep_digits hp.2.1 hd, prepC, if_pos rfl]; rfl]
      show unescapeGo 0 ('\\' :: 'u' :: (d ++ _)) = _
      rw [unescape_u hp.1 hp.2.1 hp.2.2, ih]
      rfl

theorem consTo_inv {c : Char} {x : Except Err Str} {v : Str} (h : consTo c x = .ok v) : ∃ w, x = .ok w ∧ v = c :: w := by
  cases x with
  | error => exact nomatch h
  | ok w => exact ⟨w, rfl, (Except.ok.inj h).symm⟩

theorem charAt_inv {n k : Nat} {p : Str × Nat} (h : charAt n k = .ok p) : n.isValidChar ∧ p = ([Char.ofNat n], k) := by
  unfold charAt at h
  split at h
  · exact nomatch h
  · split at h
    · exact nomatch h
    · refine ⟨?_, (Except.ok.inj h).symm⟩
      show n < 55296 ∨ 57343 < n ∧ n < 1114112
      omega

theorem fine_of_unescape : ∀ (n : Nat) (b v : Str), b.length ≤ n → unescapeGo 0 (b.flatMap (prepC '\\')) = .ok v →
    ∃ ps : List Piece, (∀ p ∈ ps, p.Fine) ∧ b = pieces '\\' ps ∧ v = spelled ps
  | _, [], v, _, h => ⟨[], fun _ h => (nomatch h), rfl, (Except.ok.inj h).symm⟩
  | 0, _ :: _, _, hl, _ => nomatch hl
  | n + 1, c :: b, v, hl, h => by
    have hl : b.length ≤ n := by simpa using hl
    rw [List.flatMap_cons] at h
    by_cases hc : c = '\\'
    · subst hc
      rw [prepC, if_pos rfl] at h
      have h : unescapeGo 0 ('\\' :: 'u' :: b.flatMap (prepC '\\')) = .ok v := h
      rw [unescapeGo, if_pos rfl] at h
      have he : escapeAt ('u' :: b.flatMap (prepC '\\')) = codeAt 4 (b.flatMap (prepC '\\')) := rfl
      rw [he] at h
      cases hx : codeAt 4 (b.flatMap (prepC '\\')) with
      | error x => rw [hx] at h; exact nomatch h
      | ok p =>
        rw [hx] at h
        unfold codeAt at hx
        split at hx
        · rename_i hd
          obtain ⟨d, r, rfl, h2, h3, h4⟩ := take_hex rfl 4 b hd.1 hd.2
          rw [List.flatMap_append, prep_digits h3 h4, ← h2, List.take_left, hexNum_eq] at hx
          obtain ⟨hv, rfl⟩ := charAt_inv hx
          have h : (unescapeGo d.length ((d ++ r).flatMap (prepC '\\')) >>= fun s => .ok (Char.ofNat (number16 d) :: s)) = .ok v := h
          rw [List.flatMap_append, prep_digits h3 h4, unescapeGo_skip] at h
          obtain ⟨w, hw, rfl⟩ := consTo_inv (x := unescapeGo 0 (r.flatMap (prepC '\\'))) (c := Char.ofNat (number16 d)) (v := v)
            (by rw [← h]; cases unescapeGo 0 (r.flatMap (prepC '\\')) <;> rfl)
          obtain ⟨ps, g1, g2, g3⟩ := fine_of_unescape n r w (by simp only [List.length_cons, List.length_append] at hl; omega) hw
          refine ⟨.code d :: ps, ?_, ?_, ?_⟩
          · intro p hp
            rcases List.mem_cons.1 hp with rfl | hp
            · exact ⟨h2, h3, hv⟩
            · exact g1 p hp
          · rw [g2]; rfl
          · rw [g3]; rfl
        · exact nomatch hx
    · rw [prepC, if_neg hc, unescape_raw hc] at h
      obtain ⟨w, hw, rfl⟩ := consTo_inv h
      obtain ⟨ps, g1, g2, g3⟩ := fine_of_unescape n b w hl hw
      refine ⟨.char c :: ps, ?_, ?_, ?_⟩
      · intro p hp
        rcases List.mem_cons.1 hp with rfl | hp
        · exact hc
        · exact g1 p hp
      · rw [g2]; rfl
      · rw [g3]; rfl

/-! ## The check of `Spec.wellWritten` -/

theorem fourDigits_iff {d : Str} (h : fourDigits d = true) : FourDigits d := by
  unfold fourDigits at h
  rw [Bool.and_eq_true, Bool.and_eq_true, List.all_eq_true] at h
  exact ⟨by simpa using h.1.1, h.1.2, by simpa using h.2⟩

theorem wellWritten_skip (e : Char) : ∀ a r : Str, wellWritten e a.length (a ++ r) = wellWritten e 0 r
  | [], _ => rfl
  | _ :: a, r => wellWritten_skip e a r

theorem decoded_skip (e : Char) : ∀ a r : Str, decoded e a.length (a ++ r) = decoded e 0 r
  | [], _ => rfl
  | _ :: a, r => decoded_skip e a r

theorem pieces_of_wellWritten (e : Char) : ∀ (n : Nat) (b : Str), b.length ≤ n → '\'' ∉ b → wellWritten e 0 b = true →
    ∃ ps : List Piece, (∀ p ∈ ps, p.Ok e) ∧ b = pieces e ps ∧ decoded e 0 b = spelled ps
  | _, [], _, _, _ => ⟨[], fun _ h => (nomatch h), rfl, rfl⟩
  | 0, _ :: _, hl, _, _ => nomatch hl
  | n + 1, c :: b, hl, hq, h => by
    have hl' : b.length ≤ n := by simpa using hl
    have hq' : '\'' ∉ b := fun m => hq (List.mem_cons_of_mem _ m)
    rw [wellWritten] at h
    by_cases hc : c = e
    · subst hc
      rw [if_pos rfl, Bool.and_eq_true, Bool.and_eq_true] at h
      have hd := fourDigits_iff h.1.1
      have he : c ∉ b.take 4 := by simpa using h.1.2
      have hb : b = b.take 4 ++ b.drop 4 := (List.take_append_drop 4 b).symm
      have hw : wellWritten c 0 (b.drop 4) = true := by
        have := h.2
        rw [hb] at this
        have hs := wellWritten_skip c (b.take 4) (b.drop 4)
        rw [hd.1] at hs
        rw [← hs]; exact this
      obtain ⟨ps, g1, g2, g3⟩ := pieces_of_wellWritten c n (b.drop 4) (by rw [List.length_drop]; omega)
        (fun m => hq' (List.mem_of_mem_drop m)) hw
      refine ⟨.code (b.take 4) :: ps, ?_, ?_, ?_⟩
      · intro p hp
        rcases List.mem_cons.1 hp with rfl | hp
        · exact ⟨hd, he⟩
        · exact g1 p hp
      · show c :: b = c :: (b.take 4) ++ pieces c ps
        rw [← g2, List.cons_append, ← hb]
      · have hs := decoded_skip c (b.take 4) (b.drop 4)
        rw [hd.1, ← hb] at hs
        have hh : ∀ x, b.head? = some x → x ∈ b.take 4 := by
          intro x hx
          cases b with
          | nil => exact nomatch hx
          | cons y r => rw [Option.some.inj hx.symm]; exact List.mem_cons_self
        rw [decoded, if_pos rfl, if_neg (fun hx => he (hh _ hx)), if_neg (fun hx => by
          have := hd.2.1 _ (hh _ hx)
          rw [show digit16 '+' = none by decide +kernel] at this
          exact nomatch this), hs, g3]
        rfl
    · rw [if_neg hc, Bool.and_eq_true] at h
      obtain ⟨ps, g1, g2, g3⟩ := pieces_of_wellWritten e n b hl' hq' h.2
      refine ⟨.char c :: ps, ?_, ?_, ?_⟩
      · intro p hp
        rcases List.mem_cons.1 hp with rfl | hp
        · exact ⟨hc, by simpa using h.1, fun hx => hq (hx ▸ List.mem_cons_self)⟩
        · exact g1 p hp
      · rw [g2]; rfl
      · rw [decoded, if_neg hc, g3]; rfl

end Treeno
