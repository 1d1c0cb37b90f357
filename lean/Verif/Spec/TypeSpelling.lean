import Verif.Spec.TypeGrammar
/-!
# Which texts name which data type

`Spells ts t`: the tokens `ts` are a way of writing the type `t`.  One constructor per way of writing
a type that the documentation of the language gives; parse trees and the visitor do not appear.
-/
set_option autoImplicit false
namespace Treeno.Spec
open Treeno

/-- The token gives the type name `n`: a word in any case, or a name in double quotes. -/
inductive TypeName : Str → Tok → Prop
  | word (t : Tok) : t.kind = .ident → TypeName (upper t.text) t
  | keyword (t : Tok) : t.kind = .kw → upper t.text ∈ nonReserved → TypeName (upper t.text) t
  | quoted (t : Tok) : t.kind = .quoted → TypeName (upper (stripC '"' t.text)) t

/-- A parameter of a type: a number or a type. -/
inductive Arg
  | num (n : Nat)
  | ty (t : Ty)

/-- The type with a name and parameters.  A precision beyond the limit names no type; parameters
beyond those of the type are ignored. -/
inductive NamedType : Str → List Arg → Ty → Prop
  | simple (s : Simple) (l : List Arg) : NamedType s.name l (.simple s)
  | decimal : NamedType (c% "DECIMAL") [] (.decimal 38 0)
  | decimal1 (p : Nat) : p ≤ 38 → NamedType (c% "DECIMAL") [.num p] (.decimal p 0)
  | decimal2 (p s : Nat) (l : List Arg) : p ≤ 38 → NamedType (c% "DECIMAL") (.num p :: .num s :: l) (.decimal p s)
  | varchar : NamedType (c% "VARCHAR") [] (.varchar none)
  | varchar1 (n : Nat) (l : List Arg) : NamedType (c% "VARCHAR") (.num n :: l) (.varchar (some n))
  | char : NamedType (c% "CHAR") [] (.char 1)
  | char1 (n : Nat) (l : List Arg) : NamedType (c% "CHAR") (.num n :: l) (.char n)
  | time : NamedType (c% "TIME") [] (.time none false)
  | time1 (p : Nat) : p ≤ 12 → NamedType (c% "TIME") [.num p] (.time (some p) false)
  | timestamp : NamedType (c% "TIMESTAMP") [] (.timestamp none false)
  | timestamp1 (p : Nat) : p ≤ 12 → NamedType (c% "TIMESTAMP") [.num p] (.timestamp (some p) false)
  | array (t : Ty) (l : List Arg) : NamedType (c% "ARRAY") (.ty t :: l) (.array t)
  | qdigest (t : Ty) (l : List Arg) : NamedType (c% "QDIGEST") (.ty t :: l) (.qdigest t)
  | map (a b : Ty) (l : List Arg) : NamedType (c% "MAP") (.ty a :: .ty b :: l) (.map a b)

/-- `[(p)]`, with `p` at most 12. -/
inductive Precision : Option Nat → List Tok → Prop
  | none : Precision none []
  | some {l n r : Tok} : S (c% "(") l → n.kind = .int → digitsVal n.text ≤ 12 → S (c% ")") r →
      Precision (some (digitsVal n.text)) [l, n, r]

/-- `[WITHOUT TIME ZONE]` (no zone) or `WITH TIME ZONE`. -/
inductive Zoned : Bool → List Tok → Prop
  | none : Zoned false []
  | without {a b c : Tok} : K (c% "WITHOUT") a → K (c% "TIME") b → K (c% "ZONE") c → Zoned false [a, b, c]
  | with_ {a b c : Tok} : K (c% "WITH") a → K (c% "TIME") b → K (c% "ZONE") c → Zoned true [a, b, c]

mutual
/-- The tokens are a way of writing the type.  The fields of an interval are in capitals. -/
inductive Spells : List Tok → Ty → Prop
  | name {a : Tok} {n : Str} {t : Ty} : TypeName n a → NamedType n [] t → Spells [a] t
  | params {a l r : Tok} {n : Str} {ts : List Tok} {args : List Arg} {t : Ty} :
      TypeName n a → S (c% "(") l → SpellsArgs ts args → S (c% ")") r → NamedType n args t →
      Spells (a :: l :: (ts ++ [r])) t
  | double {a b : Tok} : K (c% "DOUBLE") a → K (c% "PRECISION") b → Spells [a, b] (.simple .double)
  | time {a : Tok} {p : Option Nat} {ps zs : List Tok} {z : Bool} : K (c% "TIME") a → Precision p ps →
      Zoned z zs → Spells (a :: (ps ++ zs)) (.time (p.map Int.ofNat) z)
  | timestamp {a : Tok} {p : Option Nat} {ps zs : List Tok} {z : Bool} : K (c% "TIMESTAMP") a →
      Precision p ps → Zoned z zs → Spells (a :: (ps ++ zs)) (.timestamp (p.map Int.ofNat) z)
  | yearToMonth {a b : Tok} : K (c% "INTERVAL") a → K (c% "TO") b →
      Spells [a, ⟨.kw, c% "YEAR"⟩, b, ⟨.kw, c% "MONTH"⟩] (.interval .yearToMonth)
  | dayToSecond {a b : Tok} : K (c% "INTERVAL") a → K (c% "TO") b →
      Spells [a, ⟨.kw, c% "DAY"⟩, b, ⟨.kw, c% "SECOND"⟩] (.interval .dayToSecond)
  | row {a l r : Tok} {ts : List Tok} {us : List Ty} : K (c% "ROW") a → S (c% "(") l → SpellsAll ts us →
      S (c% ")") r → Spells (a :: l :: (ts ++ [r])) (.row us)
  | arrayOf {a : Tok} {ts : List Tok} {t : Ty} : Spells ts t → K (c% "ARRAY") a → Spells (ts ++ [a]) (.array t)
/-- One parameter. -/
inductive SpellsArg : List Tok → Arg → Prop
  | num {n : Tok} : n.kind = .int → SpellsArg [n] (.num (digitsVal n.text))
  | ty {ts : List Tok} {t : Ty} : Spells ts t → SpellsArg ts (.ty t)
/-- One or more parameters, separated by commas. -/
inductive SpellsArgs : List Tok → List Arg → Prop
  | one {ts : List Tok} {a : Arg} : SpellsArg ts a → SpellsArgs ts [a]
  | more {ts us : List Tok} {m : Tok} {a : Arg} {as : List Arg} : SpellsArg ts a → S (c% ",") m →
      SpellsArgs us as → SpellsArgs (ts ++ m :: us) (a :: as)
/-- One or more types, separated by commas. -/
inductive SpellsAll : List Tok → List Ty → Prop
  | one {ts : List Tok} {t : Ty} : Spells ts t → SpellsAll ts [t]
  | more {ts us : List Tok} {m : Tok} {t : Ty} {l : List Ty} : Spells ts t → S (c% ",") m →
      SpellsAll us l → SpellsAll (ts ++ m :: us) (t :: l)
end

end Treeno.Spec
