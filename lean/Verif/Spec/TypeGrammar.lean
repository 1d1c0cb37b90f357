import Verif.TypeParse
/-!
# The grammar of data types

`GTy c ts`: the tokens `ts` are derived by rule `type_` of treeno/grammar/SqlBase.g4 (652-664), with
derivation tree `c`.  One constructor per alternative of the grammar.
-/
namespace Treeno.Spec
open Treeno

/-- The token is the terminal keyword `k`. -/
def K (k : Str) (t : Tok) : Prop := t.kind = .kw ∧ upper t.text = k
/-- The token is the terminal symbol `s`. -/
def S (s : Str) (t : Tok) : Prop := t = ⟨.sym, s⟩
/-- `identifier`, SqlBase.g4 814-820. -/
def Ident (t : Tok) : Prop :=
  t.kind = .ident ∨ t.kind = .quoted ∨ t.kind = .backquoted ∨ t.kind = .digitIdent ∨
    (t.kind = .kw ∧ upper t.text ∈ nonReserved)
/-- `intervalField`, SqlBase.g4 644-646. -/
def IvField (t : Tok) : Prop :=
  K (c% "YEAR") t ∨ K (c% "MONTH") t ∨ K (c% "DAY") t ∨ K (c% "HOUR") t ∨ K (c% "MINUTE") t ∨
    K (c% "SECOND") t

/-- `(WITHOUT TIME ZONE)?` (none, some false) or `WITH TIME ZONE` (some true). -/
inductive GZone : Option Bool → List Tok → Prop
  | none : GZone none []
  | without {a b c} : K (c% "WITHOUT") a → K (c% "TIME") b → K (c% "ZONE") c → GZone (some false) [a, b, c]
  | with_ {a b c} : K (c% "WITH") a → K (c% "TIME") b → K (c% "ZONE") c → GZone (some true) [a, b, c]

mutual
/-- `type_`, SqlBase.g4 652-664. -/
inductive GTy : CTy → List Tok → Prop
  | row {a l r fs ts} : K (c% "ROW") a → S (c% "(") l → GFields fs ts → S (c% ")") r →
      GTy (.row fs) (a :: l :: (ts ++ [r]))
  | interval {a f} : K (c% "INTERVAL") a → IvField f → GTy (.interval f none) [a, f]
  | intervalTo {a f b g} : K (c% "INTERVAL") a → IvField f → K (c% "TO") b → IvField g →
      GTy (.interval f (some g)) [a, f, b, g]
  | timestamp {a p ps z zs} : K (c% "TIMESTAMP") a → GPrec p ps → GZone z zs →
      GTy (.datetime true p z) (a :: (ps ++ zs))
  | time {a p ps z zs} : K (c% "TIME") a → GPrec p ps → GZone z zs →
      GTy (.datetime false p z) (a :: (ps ++ zs))
  | double {a b} : K (c% "DOUBLE") a → K (c% "PRECISION") b → GTy .doublePrecision [a, b]
  | legacyArray {a l r t ts} : K (c% "ARRAY") a → S (c% "<") l → GTy t ts → S (c% ">") r →
      GTy (.legacyArray t) (a :: l :: (ts ++ [r]))
  | legacyMap {a l m r t ts u us} : K (c% "MAP") a → S (c% "<") l → GTy t ts → S (c% ",") m → GTy u us →
      S (c% ">") r → GTy (.legacyMap t u) (a :: l :: (ts ++ m :: (us ++ [r])))
  | arrayOf {a t ts} : GTy t ts → K (c% "ARRAY") a → GTy (.arrayOf t none) (ts ++ [a])
  | arrayOfSize {a l n r t ts} : GTy t ts → K (c% "ARRAY") a → S (c% "[") l → n.kind = .int → S (c% "]") r →
      GTy (.arrayOf t (some n)) (ts ++ [a, l, n, r])
  | name {a} : Ident a → GTy (.generic a []) [a]
  | generic {a l r ps ts} : Ident a → S (c% "(") l → GParams ps ts → S (c% ")") r →
      GTy (.generic a ps) (a :: l :: (ts ++ [r]))
/-- `('(' precision = typeParameter ')')?` -/
inductive GPrec : Option CTParam → List Tok → Prop
  | none : GPrec none []
  | some {l r p ts} : S (c% "(") l → GParam p ts → S (c% ")") r → GPrec (some p) (l :: (ts ++ [r]))
/-- `typeParameter`, SqlBase.g4 670-672. -/
inductive GParam : CTParam → List Tok → Prop
  | int {t} : t.kind = .int → GParam (.int t) [t]
  | ty {t ts} : GTy t ts → GParam (.ty t) ts
/-- `typeParameter (',' typeParameter)*` -/
inductive GParams : List CTParam → List Tok → Prop
  | one {p ts} : GParam p ts → GParams [p] ts
  | more {p ts m ps us} : GParam p ts → S (c% ",") m → GParams ps us → GParams (p :: ps) (ts ++ m :: us)
/-- `rowField`, SqlBase.g4 666-668. -/
inductive GField : CField → List Tok → Prop
  | unnamed {t ts} : GTy t ts → GField (.mk none t) ts
  | named {n t ts} : Ident n → GTy t ts → GField (.mk (some n) t) (n :: ts)
/-- `rowField (',' rowField)*` -/
inductive GFields : List CField → List Tok → Prop
  | one {p ts} : GField p ts → GFields [p] ts
  | more {p ts m ps us} : GField p ts → S (c% ",") m → GFields ps us → GFields (p :: ps) (ts ++ m :: us)
end

end Treeno.Spec
