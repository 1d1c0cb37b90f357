import Verif.Cst
/-!
# Changing the tokens of a parse tree

`c.respell σ` is the parse tree `c` with every token `t` in it replaced by `σ t`.
-/
set_option linter.unusedVariables false
namespace Treeno

mutual
def CTy.respell (σ : Tok → Tok) : CTy → CTy
  | .row x0 => .row (CField.respells σ x0)
  | .interval x0 x1 => .interval (σ x0) (x1.map σ)
  | .datetime x0 x1 x2 => .datetime x0 (CTParam.respellOpt σ x1) x2
  | .doublePrecision => .doublePrecision
  | .legacyArray x0 => .legacyArray (x0.respell σ)
  | .legacyMap x0 x1 => .legacyMap (x0.respell σ) (x1.respell σ)
  | .arrayOf x0 x1 => .arrayOf (x0.respell σ) (x1.map σ)
  | .generic x0 x1 => .generic (σ x0) (CTParam.respells σ x1)
def CField.respell (σ : Tok → Tok) : CField → CField
  | .mk x0 x1 => .mk (x0.map σ) (x1.respell σ)
def CTParam.respell (σ : Tok → Tok) : CTParam → CTParam
  | .int x0 => .int (σ x0)
  | .ty x0 => .ty (x0.respell σ)
def CField.respells (σ : Tok → Tok) : List CField → List CField
  | [] => []
  | x :: xs => x.respell σ :: CField.respells σ xs
def CTParam.respellOpt (σ : Tok → Tok) : Option CTParam → Option CTParam
  | none => none
  | some x => some (x.respell σ)
def CTParam.respells (σ : Tok → Tok) : List CTParam → List CTParam
  | [] => []
  | x :: xs => x.respell σ :: CTParam.respells σ xs
end

def CStr.respell (σ : Tok → Tok) : CStr → CStr
  | .basic t => .basic (σ t)
  | .unicode t e => .unicode (σ t) (e.map σ)
def COverflow.respell (σ : Tok → Tok) : COverflow → COverflow
  | .error => .error
  | .truncate f w => .truncate (f.map (CStr.respell σ)) w
def CLimit.respell (σ : Tok → Tok) : CLimit → CLimit
  | .none => .none
  | .limit t => .limit (σ t)
  | .fetch f n r w => .fetch (σ f) (n.map σ) (σ r) w

mutual
def CE.respell (σ : Tok → Tok) : CE → CE
  | .or_ x0 x1 => .or_ (x0.respell σ) (x1.respell σ)
  | .and_ x0 x1 => .and_ (x0.respell σ) (x1.respell σ)
  | .not_ x0 => .not_ (x0.respell σ)
  | .cmp x0 x1 x2 => .cmp (σ x0) (x1.respell σ) (x2.respell σ)
  | .between x0 x1 x2 x3 => .between x0 (x1.respell σ) (x2.respell σ) (x3.respell σ)
  | .inList x0 x1 x2 => .inList x0 (x1.respell σ) (CE.respells σ x2)
  | .inSub x0 x1 x2 => .inSub x0 (x1.respell σ) (x2.respell σ)
  | .like x0 x1 x2 x3 => .like x0 (x1.respell σ) (x2.respell σ) (CE.respellOpt σ x3)
  | .isNull x0 x1 => .isNull x0 (x1.respell σ)
  | .distinct x0 x1 x2 => .distinct x0 (x1.respell σ) (x2.respell σ)
  | .quantified x0 x1 x2 x3 => .quantified (σ x0) (σ x1) (x2.respell σ) (x3.respell σ)
  | .concat x0 x1 => .concat (x0.respell σ) (x1.respell σ)
  | .arith x0 x1 x2 => .arith (σ x0) (x1.respell σ) (x2.respell σ)
  | .sign x0 x1 => .sign (σ x0) (x1.respell σ)
  | .atZone x0 x1 => .atZone (x0.respell σ) (x1.respell σ)
  | .null => .null
  | .interval x0 x1 x2 x3 => .interval (x0.map σ) (x1.respell σ) (σ x2) (x3.map σ)
  | .typeCtor x0 x1 => .typeCtor (σ x0) (x1.respell σ)
  | .doublePrecision x0 => .doublePrecision (x0.respell σ)
  | .num x0 x1 => .num x0 (σ x1)
  | .bool x0 => .bool (σ x0)
  | .str x0 => .str (x0.respell σ)
  | .binary x0 => .binary (σ x0)
  | .param => .param
  | .row x0 => .row (CE.respells σ x0)
  | .rowKw x0 => .rowKw (CE.respells σ x0)
  | .listagg x0 x1 x2 x3 x4 => .listagg (x0.map σ) (x1.respell σ) (x2.map (CStr.respell σ)) (x3.map (COverflow.respell σ)) (CSort.respells σ x4)
  | .callStar x0 x1 x2 x3 => .callStar (x0.map σ) (x1.map σ) (CE.respellOpt σ x2) (CWin.respellOpt σ x3)
  | .call x0 x1 x2 x3 x4 x5 x6 => .call (x0.map σ) (x1.map σ) (CE.respells σ x2) (CSort.respells σ x3) (CE.respellOpt σ x4) x5 (CWin.respellOpt σ x6)
  | .lam x0 x1 x2 => .lam x0 (x1.map σ) (x2.respell σ)
  | .sub x0 => .sub (x0.respell σ)
  | .case x0 x1 x2 => .case (CE.respellOpt σ x0) (CWhen.respells σ x1) (CE.respellOpt σ x2)
  | .cast x0 x1 x2 x3 => .cast x0 (x1.respell σ) (x2.respell σ) (x3.map σ)
  | .array x0 => .array (CE.respells σ x0)
  | .subscript x0 x1 => .subscript (x0.respell σ) (x1.respell σ)
  | .col x0 => .col (σ x0)
  | .deref x0 x1 => .deref (x0.respell σ) (σ x1)
  | .dateTime x0 x1 => .dateTime (σ x0) (x1.map σ)
  | .session x0 => .session (σ x0)
  | .normalize x0 x1 => .normalize (x0.respell σ) (x1.map σ)
  | .paren x0 => .paren (x0.respell σ)
  | .exists_ x0 => .exists_ (x0.respell σ)
  | .position x0 x1 => .position (x0.respell σ) (x1.respell σ)
  | .substring x0 x1 x2 => .substring (x0.respell σ) (x1.respell σ) (CE.respellOpt σ x2)
  | .extract x0 x1 => .extract (σ x0) (x1.respell σ)
  | .trimFrom x0 x1 x2 => .trimFrom (x0.map σ) (CE.respellOpt σ x1) (x2.respell σ)
  | .trim x0 x1 => .trim (x0.respell σ) (CE.respellOpt σ x1)
  | .grouping x0 => .grouping (x0.map (List.map σ))
def CWhen.respell (σ : Tok → Tok) : CWhen → CWhen
  | .mk x0 x1 => .mk (x0.respell σ) (x1.respell σ)
def CSort.respell (σ : Tok → Tok) : CSort → CSort
  | .mk x0 x1 x2 => .mk (x0.respell σ) (x1.map σ) (x2.map σ)
def CBound.respell (σ : Tok → Tok) : CBound → CBound
  | .unbounded x0 => .unbounded (σ x0)
  | .current => .current
  | .bounded x0 x1 => .bounded (x0.respell σ) (σ x1)
def CFrame.respell (σ : Tok → Tok) : CFrame → CFrame
  | .none => .none
  | .from_ x0 x1 => .from_ (σ x0) (x1.respell σ)
  | .between x0 x1 x2 => .between (σ x0) (x1.respell σ) (x2.respell σ)
def CWin.respell (σ : Tok → Tok) : CWin → CWin
  | .ref x0 => .ref (σ x0)
  | .spec x0 x1 x2 x3 => .spec (x0.map σ) (CE.respells σ x1) (CSort.respells σ x2) (x3.respell σ)
def CSet.respell (σ : Tok → Tok) : CSet → CSet
  | .paren x0 => .paren (CE.respells σ x0)
  | .expr x0 => .expr (x0.respell σ)
def CGrp.respell (σ : Tok → Tok) : CGrp → CGrp
  | .single x0 => .single (x0.respell σ)
  | .rollup x0 => .rollup (CE.respells σ x0)
  | .cube x0 => .cube (CE.respells σ x0)
  | .sets x0 => .sets (CSet.respells σ x0)
def CItem.respell (σ : Tok → Tok) : CItem → CItem
  | .expr x0 x1 x2 => .expr (x0.respell σ) x1 (x2.map σ)
  | .allOf x0 x1 => .allOf (x0.respell σ) (x1.map σ)
  | .all => .all
def CWinDef.respell (σ : Tok → Tok) : CWinDef → CWinDef
  | .mk x0 x1 => .mk (σ x0) (x1.respell σ)
def CQ.respell (σ : Tok → Tok) : CQ → CQ
  | .mk x0 x1 x2 => .mk x0 (CNamed.respells σ x1) (x2.respell σ)
def CNamed.respell (σ : Tok → Tok) : CNamed → CNamed
  | .mk x0 x1 x2 => .mk (σ x0) (x1.map σ) (x2.respell σ)
def CQN.respell (σ : Tok → Tok) : CQN → CQN
  | .mk x0 x1 x2 x3 => .mk (x0.respell σ) (CSort.respells σ x1) (x2.map fun p => (σ p.1, p.2.map σ)) (x3.respell σ)
def CQT.respell (σ : Tok → Tok) : CQT → CQT
  | .set x0 x1 x2 x3 => .set (σ x0) (x1.map σ) (x2.respell σ) (x3.respell σ)
  | .spec x0 x1 x2 x3 x4 x5 x6 x7 => .spec (x0.map σ) (CItem.respells σ x1) (CR.respells σ x2) (CE.respellOpt σ x3) (x4.map σ) (CGrp.respells σ x5) (CE.respellOpt σ x6) (CWinDef.respells σ x7)
  | .table x0 => .table (x0.map σ)
  | .values x0 => .values (CE.respells σ x0)
  | .sub x0 => .sub (x0.respell σ)
def CR.respell (σ : Tok → Tok) : CR → CR
  | .cross x0 x1 => .cross (x0.respell σ) (x1.respell σ)
  | .join x0 x1 x2 x3 => .join (x0.respell σ) x1 (x2.respell σ) (x3.respell σ)
  | .natural x0 x1 x2 => .natural (x0.respell σ) x1 (x2.respell σ)
  | .sample x0 x1 x2 => .sample (x0.respell σ) (σ x1) (x2.respell σ)
  | .alias x0 x1 x2 x3 => .alias (x0.respell σ) x1 (σ x2) (x3.map σ)
  | .table x0 => .table (x0.map σ)
  | .sub x0 => .sub (x0.respell σ)
  | .unnest x0 x1 => .unnest (CE.respells σ x0) x1
  | .lateral x0 => .lateral (x0.respell σ)
  | .paren x0 => .paren (x0.respell σ)
def CCrit.respell (σ : Tok → Tok) : CCrit → CCrit
  | .on x0 => .on (x0.respell σ)
  | .using x0 => .using (x0.map σ)
def CE.respellOpt (σ : Tok → Tok) : Option CE → Option CE
  | none => none
  | some x => some (x.respell σ)
def CE.respells (σ : Tok → Tok) : List CE → List CE
  | [] => []
  | x :: xs => x.respell σ :: CE.respells σ xs
def CGrp.respells (σ : Tok → Tok) : List CGrp → List CGrp
  | [] => []
  | x :: xs => x.respell σ :: CGrp.respells σ xs
def CItem.respells (σ : Tok → Tok) : List CItem → List CItem
  | [] => []
  | x :: xs => x.respell σ :: CItem.respells σ xs
def CNamed.respells (σ : Tok → Tok) : List CNamed → List CNamed
  | [] => []
  | x :: xs => x.respell σ :: CNamed.respells σ xs
def CR.respells (σ : Tok → Tok) : List CR → List CR
  | [] => []
  | x :: xs => x.respell σ :: CR.respells σ xs
def CSet.respells (σ : Tok → Tok) : List CSet → List CSet
  | [] => []
  | x :: xs => x.respell σ :: CSet.respells σ xs
def CSort.respells (σ : Tok → Tok) : List CSort → List CSort
  | [] => []
  | x :: xs => x.respell σ :: CSort.respells σ xs
def CWhen.respells (σ : Tok → Tok) : List CWhen → List CWhen
  | [] => []
  | x :: xs => x.respell σ :: CWhen.respells σ xs
def CWin.respellOpt (σ : Tok → Tok) : Option CWin → Option CWin
  | none => none
  | some x => some (x.respell σ)
def CWinDef.respells (σ : Tok → Tok) : List CWinDef → List CWinDef
  | [] => []
  | x :: xs => x.respell σ :: CWinDef.respells σ xs
end

theorem CField_respells (σ : Tok → Tok) : ∀ xs, CField.respells σ xs = xs.map (CField.respell σ)
  | [] => rfl
  | x :: xs => congrArg (x.respell σ :: ·) (CField_respells σ xs)
theorem CTParam_respellOpt (σ : Tok → Tok) : ∀ x, CTParam.respellOpt σ x = x.map (CTParam.respell σ)
  | none => rfl
  | some _ => rfl
theorem CTParam_respells (σ : Tok → Tok) : ∀ xs, CTParam.respells σ xs = xs.map (CTParam.respell σ)
  | [] => rfl
  | x :: xs => congrArg (x.respell σ :: ·) (CTParam_respells σ xs)
theorem CTy_respell_row (σ : Tok → Tok) (x0 : List CField) :
    (CTy.row x0).respell σ = .row (x0.map (CField.respell σ)) := by
  simp only [← CField_respells]
  rfl
theorem CTy_respell_interval (σ : Tok → Tok) (x0 : Tok) (x1 : Option Tok) :
    (CTy.interval x0 x1).respell σ = .interval (σ x0) (x1.map σ) := rfl
theorem CTy_respell_datetime (σ : Tok → Tok) (x0 : Bool) (x1 : Option CTParam) (x2 : Option Bool) :
    (CTy.datetime x0 x1 x2).respell σ = .datetime x0 (x1.map (CTParam.respell σ)) x2 := by
  simp only [← CTParam_respellOpt, ← CTParam_respells]
  rfl
theorem CTy_respell_doublePrecision (σ : Tok → Tok) :
    (CTy.doublePrecision).respell σ = .doublePrecision := rfl
theorem CTy_respell_legacyArray (σ : Tok → Tok) (x0 : CTy) :
    (CTy.legacyArray x0).respell σ = .legacyArray (x0.respell σ) := rfl
theorem CTy_respell_legacyMap (σ : Tok → Tok) (x0 : CTy) (x1 : CTy) :
    (CTy.legacyMap x0 x1).respell σ = .legacyMap (x0.respell σ) (x1.respell σ) := rfl
theorem CTy_respell_arrayOf (σ : Tok → Tok) (x0 : CTy) (x1 : Option Tok) :
    (CTy.arrayOf x0 x1).respell σ = .arrayOf (x0.respell σ) (x1.map σ) := rfl
theorem CTy_respell_generic (σ : Tok → Tok) (x0 : Tok) (x1 : List CTParam) :
    (CTy.generic x0 x1).respell σ = .generic (σ x0) (x1.map (CTParam.respell σ)) := by
  simp only [← CTParam_respellOpt, ← CTParam_respells]
  rfl
theorem CField_respell_mk (σ : Tok → Tok) (x0 : Option Tok) (x1 : CTy) :
    (CField.mk x0 x1).respell σ = .mk (x0.map σ) (x1.respell σ) := rfl
theorem CTParam_respell_int (σ : Tok → Tok) (x0 : Tok) :
    (CTParam.int x0).respell σ = .int (σ x0) := rfl
theorem CTParam_respell_ty (σ : Tok → Tok) (x0 : CTy) :
    (CTParam.ty x0).respell σ = .ty (x0.respell σ) := rfl
theorem CE_respellOpt (σ : Tok → Tok) : ∀ x, CE.respellOpt σ x = x.map (CE.respell σ)
  | none => rfl
  | some _ => rfl
theorem CE_respells (σ : Tok → Tok) : ∀ xs, CE.respells σ xs = xs.map (CE.respell σ)
  | [] => rfl
  | x :: xs => congrArg (x.respell σ :: ·) (CE_respells σ xs)
theorem CGrp_respells (σ : Tok → Tok) : ∀ xs, CGrp.respells σ xs = xs.map (CGrp.respell σ)
  | [] => rfl
  | x :: xs => congrArg (x.respell σ :: ·) (CGrp_respells σ xs)
theorem CItem_respells (σ : Tok → Tok) : ∀ xs, CItem.respells σ xs = xs.map (CItem.respell σ)
  | [] => rfl
  | x :: xs => congrArg (x.respell σ :: ·) (CItem_respells σ xs)
theorem CNamed_respells (σ : Tok → Tok) : ∀ xs, CNamed.respells σ xs = xs.map (CNamed.respell σ)
  | [] => rfl
  | x :: xs => congrArg (x.respell σ :: ·) (CNamed_respells σ xs)
theorem CR_respells (σ : Tok → Tok) : ∀ xs, CR.respells σ xs = xs.map (CR.respell σ)
  | [] => rfl
  | x :: xs => congrArg (x.respell σ :: ·) (CR_respells σ xs)
theorem CSet_respells (σ : Tok → Tok) : ∀ xs, CSet.respells σ xs = xs.map (CSet.respell σ)
  | [] => rfl
  | x :: xs => congrArg (x.respell σ :: ·) (CSet_respells σ xs)
theorem CSort_respells (σ : Tok → Tok) : ∀ xs, CSort.respells σ xs = xs.map (CSort.respell σ)
  | [] => rfl
  | x :: xs => congrArg (x.respell σ :: ·) (CSort_respells σ xs)
theorem CWhen_respells (σ : Tok → Tok) : ∀ xs, CWhen.respells σ xs = xs.map (CWhen.respell σ)
  | [] => rfl
  | x :: xs => congrArg (x.respell σ :: ·) (CWhen_respells σ xs)
theorem CWin_respellOpt (σ : Tok → Tok) : ∀ x, CWin.respellOpt σ x = x.map (CWin.respell σ)
  | none => rfl
  | some _ => rfl
theorem CWinDef_respells (σ : Tok → Tok) : ∀ xs, CWinDef.respells σ xs = xs.map (CWinDef.respell σ)
  | [] => rfl
  | x :: xs => congrArg (x.respell σ :: ·) (CWinDef_respells σ xs)
theorem CE_respell_or_ (σ : Tok → Tok) (x0 : CE) (x1 : CE) :
    (CE.or_ x0 x1).respell σ = .or_ (x0.respell σ) (x1.respell σ) := rfl
theorem CE_respell_and_ (σ : Tok → Tok) (x0 : CE) (x1 : CE) :
    (CE.and_ x0 x1).respell σ = .and_ (x0.respell σ) (x1.respell σ) := rfl
theorem CE_respell_not_ (σ : Tok → Tok) (x0 : CE) :
    (CE.not_ x0).respell σ = .not_ (x0.respell σ) := rfl
theorem CE_respell_cmp (σ : Tok → Tok) (x0 : Tok) (x1 : CE) (x2 : CE) :
    (CE.cmp x0 x1 x2).respell σ = .cmp (σ x0) (x1.respell σ) (x2.respell σ) := rfl
theorem CE_respell_between (σ : Tok → Tok) (x0 : Bool) (x1 : CE) (x2 : CE) (x3 : CE) :
    (CE.between x0 x1 x2 x3).respell σ = .between x0 (x1.respell σ) (x2.respell σ) (x3.respell σ) := rfl
theorem CE_respell_inList (σ : Tok → Tok) (x0 : Bool) (x1 : CE) (x2 : List CE) :
    (CE.inList x0 x1 x2).respell σ = .inList x0 (x1.respell σ) (x2.map (CE.respell σ)) := by
  simp only [← CE_respellOpt, ← CE_respells]
  rfl
theorem CE_respell_inSub (σ : Tok → Tok) (x0 : Bool) (x1 : CE) (x2 : CQ) :
    (CE.inSub x0 x1 x2).respell σ = .inSub x0 (x1.respell σ) (x2.respell σ) := rfl
theorem CE_respell_like (σ : Tok → Tok) (x0 : Bool) (x1 : CE) (x2 : CE) (x3 : Option CE) :
    (CE.like x0 x1 x2 x3).respell σ = .like x0 (x1.respell σ) (x2.respell σ) (x3.map (CE.respell σ)) := by
  simp only [← CE_respellOpt, ← CE_respells]
  rfl
theorem CE_respell_isNull (σ : Tok → Tok) (x0 : Bool) (x1 : CE) :
    (CE.isNull x0 x1).respell σ = .isNull x0 (x1.respell σ) := rfl
theorem CE_respell_distinct (σ : Tok → Tok) (x0 : Bool) (x1 : CE) (x2 : CE) :
    (CE.distinct x0 x1 x2).respell σ = .distinct x0 (x1.respell σ) (x2.respell σ) := rfl
theorem CE_respell_quantified (σ : Tok → Tok) (x0 : Tok) (x1 : Tok) (x2 : CE) (x3 : CQ) :
    (CE.quantified x0 x1 x2 x3).respell σ = .quantified (σ x0) (σ x1) (x2.respell σ) (x3.respell σ) := rfl
theorem CE_respell_concat (σ : Tok → Tok) (x0 : CE) (x1 : CE) :
    (CE.concat x0 x1).respell σ = .concat (x0.respell σ) (x1.respell σ) := rfl
theorem CE_respell_arith (σ : Tok → Tok) (x0 : Tok) (x1 : CE) (x2 : CE) :
    (CE.arith x0 x1 x2).respell σ = .arith (σ x0) (x1.respell σ) (x2.respell σ) := rfl
theorem CE_respell_sign (σ : Tok → Tok) (x0 : Tok) (x1 : CE) :
    (CE.sign x0 x1).respell σ = .sign (σ x0) (x1.respell σ) := rfl
theorem CE_respell_atZone (σ : Tok → Tok) (x0 : CE) (x1 : CE) :
    (CE.atZone x0 x1).respell σ = .atZone (x0.respell σ) (x1.respell σ) := rfl
theorem CE_respell_null (σ : Tok → Tok) :
    (CE.null).respell σ = .null := rfl
theorem CE_respell_interval (σ : Tok → Tok) (x0 : Option Tok) (x1 : CStr) (x2 : Tok) (x3 : Option Tok) :
    (CE.interval x0 x1 x2 x3).respell σ = .interval (x0.map σ) (x1.respell σ) (σ x2) (x3.map σ) := rfl
theorem CE_respell_typeCtor (σ : Tok → Tok) (x0 : Tok) (x1 : CStr) :
    (CE.typeCtor x0 x1).respell σ = .typeCtor (σ x0) (x1.respell σ) := rfl
theorem CE_respell_doublePrecision (σ : Tok → Tok) (x0 : CStr) :
    (CE.doublePrecision x0).respell σ = .doublePrecision (x0.respell σ) := rfl
theorem CE_respell_num (σ : Tok → Tok) (x0 : Bool) (x1 : Tok) :
    (CE.num x0 x1).respell σ = .num x0 (σ x1) := rfl
theorem CE_respell_bool (σ : Tok → Tok) (x0 : Tok) :
    (CE.bool x0).respell σ = .bool (σ x0) := rfl
theorem CE_respell_str (σ : Tok → Tok) (x0 : CStr) :
    (CE.str x0).respell σ = .str (x0.respell σ) := rfl
theorem CE_respell_binary (σ : Tok → Tok) (x0 : Tok) :
    (CE.binary x0).respell σ = .binary (σ x0) := rfl
theorem CE_respell_param (σ : Tok → Tok) :
    (CE.param).respell σ = .param := rfl
theorem CE_respell_row (σ : Tok → Tok) (x0 : List CE) :
    (CE.row x0).respell σ = .row (x0.map (CE.respell σ)) := by
  simp only [← CE_respellOpt, ← CE_respells]
  rfl
theorem CE_respell_rowKw (σ : Tok → Tok) (x0 : List CE) :
    (CE.rowKw x0).respell σ = .rowKw (x0.map (CE.respell σ)) := by
  simp only [← CE_respellOpt, ← CE_respells]
  rfl
theorem CE_respell_listagg (σ : Tok → Tok) (x0 : Option Tok) (x1 : CE) (x2 : Option CStr) (x3 : Option COverflow) (x4 : List CSort) :
    (CE.listagg x0 x1 x2 x3 x4).respell σ = .listagg (x0.map σ) (x1.respell σ) (x2.map (CStr.respell σ)) (x3.map (COverflow.respell σ)) (x4.map (CSort.respell σ)) := by
  simp only [← CSort_respells]
  rfl
theorem CE_respell_callStar (σ : Tok → Tok) (x0 : List Tok) (x1 : Option Tok) (x2 : Option CE) (x3 : Option CWin) :
    (CE.callStar x0 x1 x2 x3).respell σ = .callStar (x0.map σ) (x1.map σ) (x2.map (CE.respell σ)) (x3.map (CWin.respell σ)) := by
  simp only [← CE_respellOpt, ← CE_respells, ← CWin_respellOpt]
  rfl
theorem CE_respell_call (σ : Tok → Tok) (x0 : List Tok) (x1 : Option Tok) (x2 : List CE) (x3 : List CSort) (x4 : Option CE) (x5 : Option Bool) (x6 : Option CWin) :
    (CE.call x0 x1 x2 x3 x4 x5 x6).respell σ = .call (x0.map σ) (x1.map σ) (x2.map (CE.respell σ)) (x3.map (CSort.respell σ)) (x4.map (CE.respell σ)) x5 (x6.map (CWin.respell σ)) := by
  simp only [← CE_respellOpt, ← CE_respells, ← CSort_respells, ← CWin_respellOpt]
  rfl
theorem CE_respell_lam (σ : Tok → Tok) (x0 : Bool) (x1 : List Tok) (x2 : CE) :
    (CE.lam x0 x1 x2).respell σ = .lam x0 (x1.map σ) (x2.respell σ) := rfl
theorem CE_respell_sub (σ : Tok → Tok) (x0 : CQ) :
    (CE.sub x0).respell σ = .sub (x0.respell σ) := rfl
theorem CE_respell_case (σ : Tok → Tok) (x0 : Option CE) (x1 : List CWhen) (x2 : Option CE) :
    (CE.case x0 x1 x2).respell σ = .case (x0.map (CE.respell σ)) (x1.map (CWhen.respell σ)) (x2.map (CE.respell σ)) := by
  simp only [← CE_respellOpt, ← CE_respells, ← CWhen_respells]
  rfl
theorem CE_respell_cast (σ : Tok → Tok) (x0 : Bool) (x1 : CE) (x2 : CTy) (x3 : List Tok) :
    (CE.cast x0 x1 x2 x3).respell σ = .cast x0 (x1.respell σ) (x2.respell σ) (x3.map σ) := rfl
theorem CE_respell_array (σ : Tok → Tok) (x0 : List CE) :
    (CE.array x0).respell σ = .array (x0.map (CE.respell σ)) := by
  simp only [← CE_respellOpt, ← CE_respells]
  rfl
theorem CE_respell_subscript (σ : Tok → Tok) (x0 : CE) (x1 : CE) :
    (CE.subscript x0 x1).respell σ = .subscript (x0.respell σ) (x1.respell σ) := rfl
theorem CE_respell_col (σ : Tok → Tok) (x0 : Tok) :
    (CE.col x0).respell σ = .col (σ x0) := rfl
theorem CE_respell_deref (σ : Tok → Tok) (x0 : CE) (x1 : Tok) :
    (CE.deref x0 x1).respell σ = .deref (x0.respell σ) (σ x1) := rfl
theorem CE_respell_dateTime (σ : Tok → Tok) (x0 : Tok) (x1 : Option Tok) :
    (CE.dateTime x0 x1).respell σ = .dateTime (σ x0) (x1.map σ) := rfl
theorem CE_respell_session (σ : Tok → Tok) (x0 : Tok) :
    (CE.session x0).respell σ = .session (σ x0) := rfl
theorem CE_respell_normalize (σ : Tok → Tok) (x0 : CE) (x1 : Option Tok) :
    (CE.normalize x0 x1).respell σ = .normalize (x0.respell σ) (x1.map σ) := rfl
theorem CE_respell_paren (σ : Tok → Tok) (x0 : CE) :
    (CE.paren x0).respell σ = .paren (x0.respell σ) := rfl
theorem CE_respell_exists_ (σ : Tok → Tok) (x0 : CQ) :
    (CE.exists_ x0).respell σ = .exists_ (x0.respell σ) := rfl
theorem CE_respell_position (σ : Tok → Tok) (x0 : CE) (x1 : CE) :
    (CE.position x0 x1).respell σ = .position (x0.respell σ) (x1.respell σ) := rfl
theorem CE_respell_substring (σ : Tok → Tok) (x0 : CE) (x1 : CE) (x2 : Option CE) :
    (CE.substring x0 x1 x2).respell σ = .substring (x0.respell σ) (x1.respell σ) (x2.map (CE.respell σ)) := by
  simp only [← CE_respellOpt, ← CE_respells]
  rfl
theorem CE_respell_extract (σ : Tok → Tok) (x0 : Tok) (x1 : CE) :
    (CE.extract x0 x1).respell σ = .extract (σ x0) (x1.respell σ) := rfl
theorem CE_respell_trimFrom (σ : Tok → Tok) (x0 : Option Tok) (x1 : Option CE) (x2 : CE) :
    (CE.trimFrom x0 x1 x2).respell σ = .trimFrom (x0.map σ) (x1.map (CE.respell σ)) (x2.respell σ) := by
  simp only [← CE_respellOpt, ← CE_respells]
  rfl
theorem CE_respell_trim (σ : Tok → Tok) (x0 : CE) (x1 : Option CE) :
    (CE.trim x0 x1).respell σ = .trim (x0.respell σ) (x1.map (CE.respell σ)) := by
  simp only [← CE_respellOpt, ← CE_respells]
  rfl
theorem CE_respell_grouping (σ : Tok → Tok) (x0 : List (List Tok)) :
    (CE.grouping x0).respell σ = .grouping (x0.map (List.map σ)) := rfl
theorem CWhen_respell_mk (σ : Tok → Tok) (x0 : CE) (x1 : CE) :
    (CWhen.mk x0 x1).respell σ = .mk (x0.respell σ) (x1.respell σ) := rfl
theorem CSort_respell_mk (σ : Tok → Tok) (x0 : CE) (x1 : Option Tok) (x2 : Option Tok) :
    (CSort.mk x0 x1 x2).respell σ = .mk (x0.respell σ) (x1.map σ) (x2.map σ) := rfl
theorem CBound_respell_unbounded (σ : Tok → Tok) (x0 : Tok) :
    (CBound.unbounded x0).respell σ = .unbounded (σ x0) := rfl
theorem CBound_respell_current (σ : Tok → Tok) :
    (CBound.current).respell σ = .current := rfl
theorem CBound_respell_bounded (σ : Tok → Tok) (x0 : CE) (x1 : Tok) :
    (CBound.bounded x0 x1).respell σ = .bounded (x0.respell σ) (σ x1) := rfl
theorem CFrame_respell_none (σ : Tok → Tok) :
    (CFrame.none).respell σ = .none := rfl
theorem CFrame_respell_from_ (σ : Tok → Tok) (x0 : Tok) (x1 : CBound) :
    (CFrame.from_ x0 x1).respell σ = .from_ (σ x0) (x1.respell σ) := rfl
theorem CFrame_respell_between (σ : Tok → Tok) (x0 : Tok) (x1 : CBound) (x2 : CBound) :
    (CFrame.between x0 x1 x2).respell σ = .between (σ x0) (x1.respell σ) (x2.respell σ) := rfl
theorem CWin_respell_ref (σ : Tok → Tok) (x0 : Tok) :
    (CWin.ref x0).respell σ = .ref (σ x0) := rfl
theorem CWin_respell_spec (σ : Tok → Tok) (x0 : Option Tok) (x1 : List CE) (x2 : List CSort) (x3 : CFrame) :
    (CWin.spec x0 x1 x2 x3).respell σ = .spec (x0.map σ) (x1.map (CE.respell σ)) (x2.map (CSort.respell σ)) (x3.respell σ) := by
  simp only [← CE_respellOpt, ← CE_respells, ← CSort_respells]
  rfl
theorem CSet_respell_paren (σ : Tok → Tok) (x0 : List CE) :
    (CSet.paren x0).respell σ = .paren (x0.map (CE.respell σ)) := by
  simp only [← CE_respellOpt, ← CE_respells]
  rfl
theorem CSet_respell_expr (σ : Tok → Tok) (x0 : CE) :
    (CSet.expr x0).respell σ = .expr (x0.respell σ) := rfl
theorem CGrp_respell_single (σ : Tok → Tok) (x0 : CSet) :
    (CGrp.single x0).respell σ = .single (x0.respell σ) := rfl
theorem CGrp_respell_rollup (σ : Tok → Tok) (x0 : List CE) :
    (CGrp.rollup x0).respell σ = .rollup (x0.map (CE.respell σ)) := by
  simp only [← CE_respellOpt, ← CE_respells]
  rfl
theorem CGrp_respell_cube (σ : Tok → Tok) (x0 : List CE) :
    (CGrp.cube x0).respell σ = .cube (x0.map (CE.respell σ)) := by
  simp only [← CE_respellOpt, ← CE_respells]
  rfl
theorem CGrp_respell_sets (σ : Tok → Tok) (x0 : List CSet) :
    (CGrp.sets x0).respell σ = .sets (x0.map (CSet.respell σ)) := by
  simp only [← CSet_respells]
  rfl
theorem CItem_respell_expr (σ : Tok → Tok) (x0 : CE) (x1 : Bool) (x2 : Option Tok) :
    (CItem.expr x0 x1 x2).respell σ = .expr (x0.respell σ) x1 (x2.map σ) := rfl
theorem CItem_respell_allOf (σ : Tok → Tok) (x0 : CE) (x1 : List Tok) :
    (CItem.allOf x0 x1).respell σ = .allOf (x0.respell σ) (x1.map σ) := rfl
theorem CItem_respell_all (σ : Tok → Tok) :
    (CItem.all).respell σ = .all := rfl
theorem CWinDef_respell_mk (σ : Tok → Tok) (x0 : Tok) (x1 : CWin) :
    (CWinDef.mk x0 x1).respell σ = .mk (σ x0) (x1.respell σ) := rfl
theorem CQ_respell_mk (σ : Tok → Tok) (x0 : Bool) (x1 : List CNamed) (x2 : CQN) :
    (CQ.mk x0 x1 x2).respell σ = .mk x0 (x1.map (CNamed.respell σ)) (x2.respell σ) := by
  simp only [← CNamed_respells]
  rfl
theorem CNamed_respell_mk (σ : Tok → Tok) (x0 : Tok) (x1 : List Tok) (x2 : CQ) :
    (CNamed.mk x0 x1 x2).respell σ = .mk (σ x0) (x1.map σ) (x2.respell σ) := rfl
theorem CQN_respell_mk (σ : Tok → Tok) (x0 : CQT) (x1 : List CSort) (x2 : Option (Tok × Option Tok)) (x3 : CLimit) :
    (CQN.mk x0 x1 x2 x3).respell σ = .mk (x0.respell σ) (x1.map (CSort.respell σ)) (x2.map fun p => (σ p.1, p.2.map σ)) (x3.respell σ) := by
  simp only [← CSort_respells]
  rfl
theorem CQT_respell_set (σ : Tok → Tok) (x0 : Tok) (x1 : Option Tok) (x2 : CQT) (x3 : CQT) :
    (CQT.set x0 x1 x2 x3).respell σ = .set (σ x0) (x1.map σ) (x2.respell σ) (x3.respell σ) := rfl
theorem CQT_respell_spec (σ : Tok → Tok) (x0 : Option Tok) (x1 : List CItem) (x2 : List CR) (x3 : Option CE) (x4 : Option Tok) (x5 : List CGrp) (x6 : Option CE) (x7 : List CWinDef) :
    (CQT.spec x0 x1 x2 x3 x4 x5 x6 x7).respell σ = .spec (x0.map σ) (x1.map (CItem.respell σ)) (x2.map (CR.respell σ)) (x3.map (CE.respell σ)) (x4.map σ) (x5.map (CGrp.respell σ)) (x6.map (CE.respell σ)) (x7.map (CWinDef.respell σ)) := by
  simp only [← CE_respellOpt, ← CE_respells, ← CGrp_respells, ← CItem_respells, ← CR_respells, ← CWinDef_respells]
  rfl
theorem CQT_respell_table (σ : Tok → Tok) (x0 : List Tok) :
    (CQT.table x0).respell σ = .table (x0.map σ) := rfl
theorem CQT_respell_values (σ : Tok → Tok) (x0 : List CE) :
    (CQT.values x0).respell σ = .values (x0.map (CE.respell σ)) := by
  simp only [← CE_respellOpt, ← CE_respells]
  rfl
theorem CQT_respell_sub (σ : Tok → Tok) (x0 : CQN) :
    (CQT.sub x0).respell σ = .sub (x0.respell σ) := rfl
theorem CR_respell_cross (σ : Tok → Tok) (x0 : CR) (x1 : CR) :
    (CR.cross x0 x1).respell σ = .cross (x0.respell σ) (x1.respell σ) := rfl
theorem CR_respell_join (σ : Tok → Tok) (x0 : CR) (x1 : CJoin) (x2 : CR) (x3 : CCrit) :
    (CR.join x0 x1 x2 x3).respell σ = .join (x0.respell σ) x1 (x2.respell σ) (x3.respell σ) := rfl
theorem CR_respell_natural (σ : Tok → Tok) (x0 : CR) (x1 : CJoin) (x2 : CR) :
    (CR.natural x0 x1 x2).respell σ = .natural (x0.respell σ) x1 (x2.respell σ) := rfl
theorem CR_respell_sample (σ : Tok → Tok) (x0 : CR) (x1 : Tok) (x2 : CE) :
    (CR.sample x0 x1 x2).respell σ = .sample (x0.respell σ) (σ x1) (x2.respell σ) := rfl
theorem CR_respell_alias (σ : Tok → Tok) (x0 : CR) (x1 : Bool) (x2 : Tok) (x3 : List Tok) :
    (CR.alias x0 x1 x2 x3).respell σ = .alias (x0.respell σ) x1 (σ x2) (x3.map σ) := rfl
theorem CR_respell_table (σ : Tok → Tok) (x0 : List Tok) :
    (CR.table x0).respell σ = .table (x0.map σ) := rfl
theorem CR_respell_sub (σ : Tok → Tok) (x0 : CQ) :
    (CR.sub x0).respell σ = .sub (x0.respell σ) := rfl
theorem CR_respell_unnest (σ : Tok → Tok) (x0 : List CE) (x1 : Bool) :
    (CR.unnest x0 x1).respell σ = .unnest (x0.map (CE.respell σ)) x1 := by
  simp only [← CE_respellOpt, ← CE_respells]
  rfl
theorem CR_respell_lateral (σ : Tok → Tok) (x0 : CQ) :
    (CR.lateral x0).respell σ = .lateral (x0.respell σ) := rfl
theorem CR_respell_paren (σ : Tok → Tok) (x0 : CR) :
    (CR.paren x0).respell σ = .paren (x0.respell σ) := rfl
theorem CCrit_respell_on (σ : Tok → Tok) (x0 : CE) :
    (CCrit.on x0).respell σ = .on (x0.respell σ) := rfl
theorem CCrit_respell_using (σ : Tok → Tok) (x0 : List Tok) :
    (CCrit.using x0).respell σ = .using (x0.map σ) := rfl

end Treeno
