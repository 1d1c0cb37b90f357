import Verif.Parse
/-!
# The parsers use their recursive calls monotonically

One lemma per function of Parse.lean that takes the recursive calls as an argument.
-/
namespace Treeno
open Lean.Order

@[partial_fixpoint_monotone]
theorem monotone_pSep {γ} [PartialOrder γ] {α} (item : γ → List Tok → Option (α × List Tok))
    (more : γ → List Tok → Option (List α × List Tok)) (h1 : monotone item) (h2 : monotone more) :
    monotone (fun x => pSep (item x) (more x)) := by
  apply monotone_of_monotone_apply
  intro ts
  have a1 := monotone_apply (f := item) ts h1
  unfold pSep
  apply monotone_bind
  · exact a1
  · apply monotone_of_monotone_apply
    intro p
    split
    · repeat monotonicity
    · apply monotone_bind
      · exact monotone_apply (f := more) _ h2
      · repeat monotonicity

theorem pArgs_mono (close : Str) (ts : List Tok) : monotone (fun r : Rec => pArgs r close ts) := by
  unfold pArgs
  repeat monotonicity

@[partial_fixpoint_monotone]
theorem monotone_pArgs {γ} [PartialOrder γ] (f : γ → Rec) (hf : monotone f) (close : Str) (ts : List Tok) :
    monotone (fun x => pArgs (f x) close ts) := by
  exact fun x y h => pArgs_mono close ts (f x) (f y) (hf x y h)

@[partial_fixpoint_monotone]
theorem monotone_pArgs' {γ} [PartialOrder γ] (f : γ → Rec) (hf : monotone f) (close : Str) :
    monotone (fun x => pArgs (f x) close) := by
  apply monotone_of_monotone_apply; intro ts; exact monotone_pArgs f hf close ts

theorem pSub_mono (ts : List Tok) : monotone (fun r : Rec => pSub r ts) := by
  unfold pSub
  repeat monotonicity

@[partial_fixpoint_monotone]
theorem monotone_pSub {γ} [PartialOrder γ] (f : γ → Rec) (hf : monotone f) (ts : List Tok) :
    monotone (fun x => pSub (f x) ts) := by
  exact fun x y h => pSub_mono ts (f x) (f y) (hf x y h)

@[partial_fixpoint_monotone]
theorem monotone_pSub' {γ} [PartialOrder γ] (f : γ → Rec) (hf : monotone f)  :
    monotone (fun x => pSub (f x)) := by
  apply monotone_of_monotone_apply; intro ts; exact monotone_pSub f hf  ts

theorem optExpr_mono (k : Str) (ts : List Tok) : monotone (fun r : Rec => optExpr r k ts) := by
  unfold optExpr
  repeat monotonicity

@[partial_fixpoint_monotone]
theorem monotone_optExpr {γ} [PartialOrder γ] (f : γ → Rec) (hf : monotone f) (k : Str) (ts : List Tok) :
    monotone (fun x => optExpr (f x) k ts) := by
  exact fun x y h => optExpr_mono k ts (f x) (f y) (hf x y h)

@[partial_fixpoint_monotone]
theorem monotone_optExpr' {γ} [PartialOrder γ] (f : γ → Rec) (hf : monotone f) (k : Str) :
    monotone (fun x => optExpr (f x) k) := by
  apply monotone_of_monotone_apply; intro ts; exact monotone_optExpr f hf k ts

theorem optOrder_mono (ts : List Tok) : monotone (fun r : Rec => optOrder r ts) := by
  unfold optOrder
  repeat monotonicity

@[partial_fixpoint_monotone]
theorem monotone_optOrder {γ} [PartialOrder γ] (f : γ → Rec) (hf : monotone f) (ts : List Tok) :
    monotone (fun x => optOrder (f x) ts) := by
  exact fun x y h => optOrder_mono ts (f x) (f y) (hf x y h)

@[partial_fixpoint_monotone]
theorem monotone_optOrder' {γ} [PartialOrder γ] (f : γ → Rec) (hf : monotone f)  :
    monotone (fun x => optOrder (f x)) := by
  apply monotone_of_monotone_apply; intro ts; exact monotone_optOrder f hf  ts

theorem optFilter_mono (ts : List Tok) : monotone (fun r : Rec => optFilter r ts) := by
  unfold optFilter
  repeat monotonicity

@[partial_fixpoint_monotone]
theorem monotone_optFilter {γ} [PartialOrder γ] (f : γ → Rec) (hf : monotone f) (ts : List Tok) :
    monotone (fun x => optFilter (f x) ts) := by
  exact fun x y h => optFilter_mono ts (f x) (f y) (hf x y h)

@[partial_fixpoint_monotone]
theorem monotone_optFilter' {γ} [PartialOrder γ] (f : γ → Rec) (hf : monotone f)  :
    monotone (fun x => optFilter (f x)) := by
  apply monotone_of_monotone_apply; intro ts; exact monotone_optFilter f hf  ts

theorem optOver_mono (ts : List Tok) : monotone (fun r : Rec => optOver r ts) := by
  unfold optOver
  repeat monotonicity

@[partial_fixpoint_monotone]
theorem monotone_optOver {γ} [PartialOrder γ] (f : γ → Rec) (hf : monotone f) (ts : List Tok) :
    monotone (fun x => optOver (f x) ts) := by
  exact fun x y h => optOver_mono ts (f x) (f y) (hf x y h)

@[partial_fixpoint_monotone]
theorem monotone_optOver' {γ} [PartialOrder γ] (f : γ → Rec) (hf : monotone f)  :
    monotone (fun x => optOver (f x)) := by
  apply monotone_of_monotone_apply; intro ts; exact monotone_optOver f hf  ts

theorem optNullsOver_mono (ts : List Tok) : monotone (fun r : Rec => optNullsOver r ts) := by
  unfold optNullsOver
  repeat monotonicity

@[partial_fixpoint_monotone]
theorem monotone_optNullsOver {γ} [PartialOrder γ] (f : γ → Rec) (hf : monotone f) (ts : List Tok) :
    monotone (fun x => optNullsOver (f x) ts) := by
  exact fun x y h => optNullsOver_mono ts (f x) (f y) (hf x y h)

@[partial_fixpoint_monotone]
theorem monotone_optNullsOver' {γ} [PartialOrder γ] (f : γ → Rec) (hf : monotone f)  :
    monotone (fun x => optNullsOver (f x)) := by
  apply monotone_of_monotone_apply; intro ts; exact monotone_optNullsOver f hf  ts

theorem callArgs_mono (quant : Option Tok) (ts : List Tok) : monotone (fun r : Rec => callArgs r quant ts) := by
  unfold callArgs
  repeat monotonicity

@[partial_fixpoint_monotone]
theorem monotone_callArgs {γ} [PartialOrder γ] (f : γ → Rec) (hf : monotone f) (quant : Option Tok) (ts : List Tok) :
    monotone (fun x => callArgs (f x) quant ts) := by
  exact fun x y h => callArgs_mono quant ts (f x) (f y) (hf x y h)

@[partial_fixpoint_monotone]
theorem monotone_callArgs' {γ} [PartialOrder γ] (f : γ → Rec) (hf : monotone f) (quant : Option Tok) :
    monotone (fun x => callArgs (f x) quant) := by
  apply monotone_of_monotone_apply; intro ts; exact monotone_callArgs f hf quant ts

theorem pCall_mono (name : List Tok) (ts : List Tok) : monotone (fun r : Rec => pCall r name ts) := by
  unfold pCall
  repeat monotonicity

@[partial_fixpoint_monotone]
theorem monotone_pCall {γ} [PartialOrder γ] (f : γ → Rec) (hf : monotone f) (name : List Tok) (ts : List Tok) :
    monotone (fun x => pCall (f x) name ts) := by
  exact fun x y h => pCall_mono name ts (f x) (f y) (hf x y h)

@[partial_fixpoint_monotone]
theorem monotone_pCall' {γ} [PartialOrder γ] (f : γ → Rec) (hf : monotone f) (name : List Tok) :
    monotone (fun x => pCall (f x) name) := by
  apply monotone_of_monotone_apply; intro ts; exact monotone_pCall f hf name ts

theorem pListAgg_mono (ts : List Tok) : monotone (fun r : Rec => pListAgg r ts) := by
  unfold pListAgg
  repeat monotonicity

@[partial_fixpoint_monotone]
theorem monotone_pListAgg {γ} [PartialOrder γ] (f : γ → Rec) (hf : monotone f) (ts : List Tok) :
    monotone (fun x => pListAgg (f x) ts) := by
  exact fun x y h => pListAgg_mono ts (f x) (f y) (hf x y h)

@[partial_fixpoint_monotone]
theorem monotone_pListAgg' {γ} [PartialOrder γ] (f : γ → Rec) (hf : monotone f)  :
    monotone (fun x => pListAgg (f x)) := by
  apply monotone_of_monotone_apply; intro ts; exact monotone_pListAgg f hf  ts

theorem caseOperand_mono (ts : List Tok) : monotone (fun r : Rec => caseOperand r ts) := by
  unfold caseOperand
  repeat monotonicity

@[partial_fixpoint_monotone]
theorem monotone_caseOperand {γ} [PartialOrder γ] (f : γ → Rec) (hf : monotone f) (ts : List Tok) :
    monotone (fun x => caseOperand (f x) ts) := by
  exact fun x y h => caseOperand_mono ts (f x) (f y) (hf x y h)

@[partial_fixpoint_monotone]
theorem monotone_caseOperand' {γ} [PartialOrder γ] (f : γ → Rec) (hf : monotone f)  :
    monotone (fun x => caseOperand (f x)) := by
  apply monotone_of_monotone_apply; intro ts; exact monotone_caseOperand f hf  ts

theorem pCase_mono (ts : List Tok) : monotone (fun r : Rec => pCase r ts) := by
  unfold pCase
  repeat monotonicity

@[partial_fixpoint_monotone]
theorem monotone_pCase {γ} [PartialOrder γ] (f : γ → Rec) (hf : monotone f) (ts : List Tok) :
    monotone (fun x => pCase (f x) ts) := by
  exact fun x y h => pCase_mono ts (f x) (f y) (hf x y h)

@[partial_fixpoint_monotone]
theorem monotone_pCase' {γ} [PartialOrder γ] (f : γ → Rec) (hf : monotone f)  :
    monotone (fun x => pCase (f x)) := by
  apply monotone_of_monotone_apply; intro ts; exact monotone_pCase f hf  ts

theorem pCast_mono (try_ : Bool) (ts : List Tok) : monotone (fun r : Rec => pCast r try_ ts) := by
  unfold pCast
  repeat monotonicity

@[partial_fixpoint_monotone]
theorem monotone_pCast {γ} [PartialOrder γ] (f : γ → Rec) (hf : monotone f) (try_ : Bool) (ts : List Tok) :
    monotone (fun x => pCast (f x) try_ ts) := by
  exact fun x y h => pCast_mono try_ ts (f x) (f y) (hf x y h)

@[partial_fixpoint_monotone]
theorem monotone_pCast' {γ} [PartialOrder γ] (f : γ → Rec) (hf : monotone f) (try_ : Bool) :
    monotone (fun x => pCast (f x) try_) := by
  apply monotone_of_monotone_apply; intro ts; exact monotone_pCast f hf try_ ts

theorem pNormalize_mono (ts : List Tok) : monotone (fun r : Rec => pNormalize r ts) := by
  unfold pNormalize
  repeat monotonicity

@[partial_fixpoint_monotone]
theorem monotone_pNormalize {γ} [PartialOrder γ] (f : γ → Rec) (hf : monotone f) (ts : List Tok) :
    monotone (fun x => pNormalize (f x) ts) := by
  exact fun x y h => pNormalize_mono ts (f x) (f y) (hf x y h)

@[partial_fixpoint_monotone]
theorem monotone_pNormalize' {γ} [PartialOrder γ] (f : γ → Rec) (hf : monotone f)  :
    monotone (fun x => pNormalize (f x)) := by
  apply monotone_of_monotone_apply; intro ts; exact monotone_pNormalize f hf  ts

theorem pExists_mono (ts : List Tok) : monotone (fun r : Rec => pExists r ts) := by
  unfold pExists
  repeat monotonicity

@[partial_fixpoint_monotone]
theorem monotone_pExists {γ} [PartialOrder γ] (f : γ → Rec) (hf : monotone f) (ts : List Tok) :
    monotone (fun x => pExists (f x) ts) := by
  exact fun x y h => pExists_mono ts (f x) (f y) (hf x y h)

@[partial_fixpoint_monotone]
theorem monotone_pExists' {γ} [PartialOrder γ] (f : γ → Rec) (hf : monotone f)  :
    monotone (fun x => pExists (f x)) := by
  apply monotone_of_monotone_apply; intro ts; exact monotone_pExists f hf  ts

theorem pPosition_mono (ts : List Tok) : monotone (fun r : Rec => pPosition r ts) := by
  unfold pPosition
  repeat monotonicity

@[partial_fixpoint_monotone]
theorem monotone_pPosition {γ} [PartialOrder γ] (f : γ → Rec) (hf : monotone f) (ts : List Tok) :
    monotone (fun x => pPosition (f x) ts) := by
  exact fun x y h => pPosition_mono ts (f x) (f y) (hf x y h)

@[partial_fixpoint_monotone]
theorem monotone_pPosition' {γ} [PartialOrder γ] (f : γ → Rec) (hf : monotone f)  :
    monotone (fun x => pPosition (f x)) := by
  apply monotone_of_monotone_apply; intro ts; exact monotone_pPosition f hf  ts

theorem optValue_mono (k : Str) (ts : List Tok) : monotone (fun r : Rec => optValue r k ts) := by
  unfold optValue
  repeat monotonicity

@[partial_fixpoint_monotone]
theorem monotone_optValue {γ} [PartialOrder γ] (f : γ → Rec) (hf : monotone f) (k : Str) (ts : List Tok) :
    monotone (fun x => optValue (f x) k ts) := by
  exact fun x y h => optValue_mono k ts (f x) (f y) (hf x y h)

@[partial_fixpoint_monotone]
theorem monotone_optValue' {γ} [PartialOrder γ] (f : γ → Rec) (hf : monotone f) (k : Str) :
    monotone (fun x => optValue (f x) k) := by
  apply monotone_of_monotone_apply; intro ts; exact monotone_optValue f hf k ts

theorem pSubstring_mono (ts : List Tok) : monotone (fun r : Rec => pSubstring r ts) := by
  unfold pSubstring
  repeat monotonicity

@[partial_fixpoint_monotone]
theorem monotone_pSubstring {γ} [PartialOrder γ] (f : γ → Rec) (hf : monotone f) (ts : List Tok) :
    monotone (fun x => pSubstring (f x) ts) := by
  exact fun x y h => pSubstring_mono ts (f x) (f y) (hf x y h)

@[partial_fixpoint_monotone]
theorem monotone_pSubstring' {γ} [PartialOrder γ] (f : γ → Rec) (hf : monotone f)  :
    monotone (fun x => pSubstring (f x)) := by
  apply monotone_of_monotone_apply; intro ts; exact monotone_pSubstring f hf  ts

theorem pExtract_mono (ts : List Tok) : monotone (fun r : Rec => pExtract r ts) := by
  unfold pExtract
  repeat monotonicity

@[partial_fixpoint_monotone]
theorem monotone_pExtract {γ} [PartialOrder γ] (f : γ → Rec) (hf : monotone f) (ts : List Tok) :
    monotone (fun x => pExtract (f x) ts) := by
  exact fun x y h => pExtract_mono ts (f x) (f y) (hf x y h)

@[partial_fixpoint_monotone]
theorem monotone_pExtract' {γ} [PartialOrder γ] (f : γ → Rec) (hf : monotone f)  :
    monotone (fun x => pExtract (f x)) := by
  apply monotone_of_monotone_apply; intro ts; exact monotone_pExtract f hf  ts

theorem trimChar_mono (ts : List Tok) : monotone (fun r : Rec => trimChar r ts) := by
  unfold trimChar
  repeat monotonicity

@[partial_fixpoint_monotone]
theorem monotone_trimChar {γ} [PartialOrder γ] (f : γ → Rec) (hf : monotone f) (ts : List Tok) :
    monotone (fun x => trimChar (f x) ts) := by
  exact fun x y h => trimChar_mono ts (f x) (f y) (hf x y h)

@[partial_fixpoint_monotone]
theorem monotone_trimChar' {γ} [PartialOrder γ] (f : γ → Rec) (hf : monotone f)  :
    monotone (fun x => trimChar (f x)) := by
  apply monotone_of_monotone_apply; intro ts; exact monotone_trimChar f hf  ts

theorem optComma_mono (ts : List Tok) : monotone (fun r : Rec => optComma r ts) := by
  unfold optComma
  repeat monotonicity

@[partial_fixpoint_monotone]
theorem monotone_optComma {γ} [PartialOrder γ] (f : γ → Rec) (hf : monotone f) (ts : List Tok) :
    monotone (fun x => optComma (f x) ts) := by
  exact fun x y h => optComma_mono ts (f x) (f y) (hf x y h)

@[partial_fixpoint_monotone]
theorem monotone_optComma' {γ} [PartialOrder γ] (f : γ → Rec) (hf : monotone f)  :
    monotone (fun x => optComma (f x)) := by
  apply monotone_of_monotone_apply; intro ts; exact monotone_optComma f hf  ts

theorem trimPlain_mono (s : Option Tok) (c : Option CE) (ts : List Tok) : monotone (fun r : Rec => trimPlain r s c ts) := by
  unfold trimPlain
  repeat monotonicity

@[partial_fixpoint_monotone]
theorem monotone_trimPlain {γ} [PartialOrder γ] (f : γ → Rec) (hf : monotone f) (s : Option Tok) (c : Option CE) (ts : List Tok) :
    monotone (fun x => trimPlain (f x) s c ts) := by
  exact fun x y h => trimPlain_mono s c ts (f x) (f y) (hf x y h)

@[partial_fixpoint_monotone]
theorem monotone_trimPlain' {γ} [PartialOrder γ] (f : γ → Rec) (hf : monotone f) (s : Option Tok) (c : Option CE) :
    monotone (fun x => trimPlain (f x) s c) := by
  apply monotone_of_monotone_apply; intro ts; exact monotone_trimPlain f hf s c ts

theorem pTrim_mono (ts : List Tok) : monotone (fun r : Rec => pTrim r ts) := by
  unfold pTrim
  repeat monotonicity

@[partial_fixpoint_monotone]
theorem monotone_pTrim {γ} [PartialOrder γ] (f : γ → Rec) (hf : monotone f) (ts : List Tok) :
    monotone (fun x => pTrim (f x) ts) := by
  exact fun x y h => pTrim_mono ts (f x) (f y) (hf x y h)

@[partial_fixpoint_monotone]
theorem monotone_pTrim' {γ} [PartialOrder γ] (f : γ → Rec) (hf : monotone f)  :
    monotone (fun x => pTrim (f x)) := by
  apply monotone_of_monotone_apply; intro ts; exact monotone_pTrim f hf  ts

theorem pParen_mono (ts : List Tok) : monotone (fun r : Rec => pParen r ts) := by
  unfold pParen
  repeat monotonicity

@[partial_fixpoint_monotone]
theorem monotone_pParen {γ} [PartialOrder γ] (f : γ → Rec) (hf : monotone f) (ts : List Tok) :
    monotone (fun x => pParen (f x) ts) := by
  exact fun x y h => pParen_mono ts (f x) (f y) (hf x y h)

@[partial_fixpoint_monotone]
theorem monotone_pParen' {γ} [PartialOrder γ] (f : γ → Rec) (hf : monotone f)  :
    monotone (fun x => pParen (f x)) := by
  apply monotone_of_monotone_apply; intro ts; exact monotone_pParen f hf  ts

theorem pName_mono (t : Tok) (ts : List Tok) : monotone (fun r : Rec => pName r t ts) := by
  unfold pName
  repeat monotonicity

@[partial_fixpoint_monotone]
theorem monotone_pName {γ} [PartialOrder γ] (f : γ → Rec) (hf : monotone f) (t : Tok) (ts : List Tok) :
    monotone (fun x => pName (f x) t ts) := by
  exact fun x y h => pName_mono t ts (f x) (f y) (hf x y h)

@[partial_fixpoint_monotone]
theorem monotone_pName' {γ} [PartialOrder γ] (f : γ → Rec) (hf : monotone f) (t : Tok) :
    monotone (fun x => pName (f x) t) := by
  apply monotone_of_monotone_apply; intro ts; exact monotone_pName f hf t ts

theorem pPrimary_mono (t : Tok) (ts : List Tok) : monotone (fun r : Rec => pPrimary r t ts) := by
  unfold pPrimary
  repeat monotonicity

@[partial_fixpoint_monotone]
theorem monotone_pPrimary {γ} [PartialOrder γ] (f : γ → Rec) (hf : monotone f) (t : Tok) (ts : List Tok) :
    monotone (fun x => pPrimary (f x) t ts) := by
  exact fun x y h => pPrimary_mono t ts (f x) (f y) (hf x y h)

@[partial_fixpoint_monotone]
theorem monotone_pPrimary' {γ} [PartialOrder γ] (f : γ → Rec) (hf : monotone f) (t : Tok) :
    monotone (fun x => pPrimary (f x) t) := by
  apply monotone_of_monotone_apply; intro ts; exact monotone_pPrimary f hf t ts

theorem pPostfix_mono (acc : CE) (ts : List Tok) : monotone (fun r : Rec => pPostfix r acc ts) := by
  unfold pPostfix
  repeat monotonicity

@[partial_fixpoint_monotone]
theorem monotone_pPostfix {γ} [PartialOrder γ] (f : γ → Rec) (hf : monotone f) (acc : CE) (ts : List Tok) :
    monotone (fun x => pPostfix (f x) acc ts) := by
  exact fun x y h => pPostfix_mono acc ts (f x) (f y) (hf x y h)

@[partial_fixpoint_monotone]
theorem monotone_pPostfix' {γ} [PartialOrder γ] (f : γ → Rec) (hf : monotone f) (acc : CE) :
    monotone (fun x => pPostfix (f x) acc) := by
  apply monotone_of_monotone_apply; intro ts; exact monotone_pPostfix f hf acc ts

theorem pAt_mono (acc : CE) (ts : List Tok) : monotone (fun r : Rec => pAt r acc ts) := by
  unfold pAt
  repeat monotonicity

@[partial_fixpoint_monotone]
theorem monotone_pAt {γ} [PartialOrder γ] (f : γ → Rec) (hf : monotone f) (acc : CE) (ts : List Tok) :
    monotone (fun x => pAt (f x) acc ts) := by
  exact fun x y h => pAt_mono acc ts (f x) (f y) (hf x y h)

@[partial_fixpoint_monotone]
theorem monotone_pAt' {γ} [PartialOrder γ] (f : γ → Rec) (hf : monotone f) (acc : CE) :
    monotone (fun x => pAt (f x) acc) := by
  apply monotone_of_monotone_apply; intro ts; exact monotone_pAt f hf acc ts

theorem optEscape_mono (ts : List Tok) : monotone (fun r : Rec => optEscape r ts) := by
  unfold optEscape
  repeat monotonicity

@[partial_fixpoint_monotone]
theorem monotone_optEscape {γ} [PartialOrder γ] (f : γ → Rec) (hf : monotone f) (ts : List Tok) :
    monotone (fun x => optEscape (f x) ts) := by
  exact fun x y h => optEscape_mono ts (f x) (f y) (hf x y h)

@[partial_fixpoint_monotone]
theorem monotone_optEscape' {γ} [PartialOrder γ] (f : γ → Rec) (hf : monotone f)  :
    monotone (fun x => optEscape (f x)) := by
  apply monotone_of_monotone_apply; intro ts; exact monotone_optEscape f hf  ts

theorem pNegatable_mono (acc : CE) (neg : Bool) (t : Tok) (ts : List Tok) : monotone (fun r : Rec => pNegatable r acc neg t ts) := by
  unfold pNegatable
  repeat monotonicity

@[partial_fixpoint_monotone]
theorem monotone_pNegatable {γ} [PartialOrder γ] (f : γ → Rec) (hf : monotone f) (acc : CE) (neg : Bool) (t : Tok) (ts : List Tok) :
    monotone (fun x => pNegatable (f x) acc neg t ts) := by
  exact fun x y h => pNegatable_mono acc neg t ts (f x) (f y) (hf x y h)

@[partial_fixpoint_monotone]
theorem monotone_pNegatable' {γ} [PartialOrder γ] (f : γ → Rec) (hf : monotone f) (acc : CE) (neg : Bool) (t : Tok) :
    monotone (fun x => pNegatable (f x) acc neg t) := by
  apply monotone_of_monotone_apply; intro ts; exact monotone_pNegatable f hf acc neg t ts

theorem pIs_mono (acc : CE) (ts : List Tok) : monotone (fun r : Rec => pIs r acc ts) := by
  unfold pIs
  repeat monotonicity

@[partial_fixpoint_monotone]
theorem monotone_pIs {γ} [PartialOrder γ] (f : γ → Rec) (hf : monotone f) (acc : CE) (ts : List Tok) :
    monotone (fun x => pIs (f x) acc ts) := by
  exact fun x y h => pIs_mono acc ts (f x) (f y) (hf x y h)

@[partial_fixpoint_monotone]
theorem monotone_pIs' {γ} [PartialOrder γ] (f : γ → Rec) (hf : monotone f) (acc : CE) :
    monotone (fun x => pIs (f x) acc) := by
  apply monotone_of_monotone_apply; intro ts; exact monotone_pIs f hf acc ts

theorem pCompared_mono (acc : CE) (t : Tok) (ts : List Tok) : monotone (fun r : Rec => pCompared r acc t ts) := by
  unfold pCompared
  repeat monotonicity

@[partial_fixpoint_monotone]
theorem monotone_pCompared {γ} [PartialOrder γ] (f : γ → Rec) (hf : monotone f) (acc : CE) (t : Tok) (ts : List Tok) :
    monotone (fun x => pCompared (f x) acc t ts) := by
  exact fun x y h => pCompared_mono acc t ts (f x) (f y) (hf x y h)

@[partial_fixpoint_monotone]
theorem monotone_pCompared' {γ} [PartialOrder γ] (f : γ → Rec) (hf : monotone f) (acc : CE) (t : Tok) :
    monotone (fun x => pCompared (f x) acc t) := by
  apply monotone_of_monotone_apply; intro ts; exact monotone_pCompared f hf acc t ts

theorem pPredicate_mono (acc : CE) (ts : List Tok) : monotone (fun r : Rec => pPredicate r acc ts) := by
  unfold pPredicate
  repeat monotonicity

@[partial_fixpoint_monotone]
theorem monotone_pPredicate {γ} [PartialOrder γ] (f : γ → Rec) (hf : monotone f) (acc : CE) (ts : List Tok) :
    monotone (fun x => pPredicate (f x) acc ts) := by
  exact fun x y h => pPredicate_mono acc ts (f x) (f y) (hf x y h)

@[partial_fixpoint_monotone]
theorem monotone_pPredicate' {γ} [PartialOrder γ] (f : γ → Rec) (hf : monotone f) (acc : CE) :
    monotone (fun x => pPredicate (f x) acc) := by
  apply monotone_of_monotone_apply; intro ts; exact monotone_pPredicate f hf acc ts

theorem pBinLoop_mono (p : Nat) (acc : CE) (ts : List Tok) : monotone (fun r : Rec => pBinLoop r p acc ts) := by
  unfold pBinLoop
  repeat monotonicity

@[partial_fixpoint_monotone]
theorem monotone_pBinLoop {γ} [PartialOrder γ] (f : γ → Rec) (hf : monotone f) (p : Nat) (acc : CE) (ts : List Tok) :
    monotone (fun x => pBinLoop (f x) p acc ts) := by
  exact fun x y h => pBinLoop_mono p acc ts (f x) (f y) (hf x y h)

@[partial_fixpoint_monotone]
theorem monotone_pBinLoop' {γ} [PartialOrder γ] (f : γ → Rec) (hf : monotone f) (p : Nat) (acc : CE) :
    monotone (fun x => pBinLoop (f x) p acc) := by
  apply monotone_of_monotone_apply; intro ts; exact monotone_pBinLoop f hf p acc ts

theorem pOperand_mono (p : Nat) (ts : List Tok) : monotone (fun r : Rec => pOperand r p ts) := by
  unfold pOperand
  repeat monotonicity

@[partial_fixpoint_monotone]
theorem monotone_pOperand {γ} [PartialOrder γ] (f : γ → Rec) (hf : monotone f) (p : Nat) (ts : List Tok) :
    monotone (fun x => pOperand (f x) p ts) := by
  exact fun x y h => pOperand_mono p ts (f x) (f y) (hf x y h)

@[partial_fixpoint_monotone]
theorem monotone_pOperand' {γ} [PartialOrder γ] (f : γ → Rec) (hf : monotone f) (p : Nat) :
    monotone (fun x => pOperand (f x) p) := by
  apply monotone_of_monotone_apply; intro ts; exact monotone_pOperand f hf p ts

theorem pLevel_mono (p : Nat) (ts : List Tok) : monotone (fun r : Rec => pLevel r p ts) := by
  unfold pLevel
  repeat monotonicity

@[partial_fixpoint_monotone]
theorem monotone_pLevel {γ} [PartialOrder γ] (f : γ → Rec) (hf : monotone f) (p : Nat) (ts : List Tok) :
    monotone (fun x => pLevel (f x) p ts) := by
  exact fun x y h => pLevel_mono p ts (f x) (f y) (hf x y h)

@[partial_fixpoint_monotone]
theorem monotone_pLevel' {γ} [PartialOrder γ] (f : γ → Rec) (hf : monotone f) (p : Nat) :
    monotone (fun x => pLevel (f x) p) := by
  apply monotone_of_monotone_apply; intro ts; exact monotone_pLevel f hf p ts

theorem pLoop_mono (p : Nat) (acc : CE) (ts : List Tok) : monotone (fun r : Rec => pLoop r p acc ts) := by
  unfold pLoop
  repeat monotonicity

@[partial_fixpoint_monotone]
theorem monotone_pLoop {γ} [PartialOrder γ] (f : γ → Rec) (hf : monotone f) (p : Nat) (acc : CE) (ts : List Tok) :
    monotone (fun x => pLoop (f x) p acc ts) := by
  exact fun x y h => pLoop_mono p acc ts (f x) (f y) (hf x y h)

@[partial_fixpoint_monotone]
theorem monotone_pLoop' {γ} [PartialOrder γ] (f : γ → Rec) (hf : monotone f) (p : Nat) (acc : CE) :
    monotone (fun x => pLoop (f x) p acc) := by
  apply monotone_of_monotone_apply; intro ts; exact monotone_pLoop f hf p acc ts

theorem pWhen_mono (ts : List Tok) : monotone (fun r : Rec => pWhen r ts) := by
  unfold pWhen
  repeat monotonicity

@[partial_fixpoint_monotone]
theorem monotone_pWhen {γ} [PartialOrder γ] (f : γ → Rec) (hf : monotone f) (ts : List Tok) :
    monotone (fun x => pWhen (f x) ts) := by
  exact fun x y h => pWhen_mono ts (f x) (f y) (hf x y h)

@[partial_fixpoint_monotone]
theorem monotone_pWhen' {γ} [PartialOrder γ] (f : γ → Rec) (hf : monotone f)  :
    monotone (fun x => pWhen (f x)) := by
  apply monotone_of_monotone_apply; intro ts; exact monotone_pWhen f hf  ts

theorem pWhens_mono (ts : List Tok) : monotone (fun r : Rec => pWhens r ts) := by
  unfold pWhens
  repeat monotonicity

@[partial_fixpoint_monotone]
theorem monotone_pWhens {γ} [PartialOrder γ] (f : γ → Rec) (hf : monotone f) (ts : List Tok) :
    monotone (fun x => pWhens (f x) ts) := by
  exact fun x y h => pWhens_mono ts (f x) (f y) (hf x y h)

@[partial_fixpoint_monotone]
theorem monotone_pWhens' {γ} [PartialOrder γ] (f : γ → Rec) (hf : monotone f)  :
    monotone (fun x => pWhens (f x)) := by
  apply monotone_of_monotone_apply; intro ts; exact monotone_pWhens f hf  ts

theorem pSort_mono (ts : List Tok) : monotone (fun r : Rec => pSort r ts) := by
  unfold pSort
  repeat monotonicity

@[partial_fixpoint_monotone]
theorem monotone_pSort {γ} [PartialOrder γ] (f : γ → Rec) (hf : monotone f) (ts : List Tok) :
    monotone (fun x => pSort (f x) ts) := by
  exact fun x y h => pSort_mono ts (f x) (f y) (hf x y h)

@[partial_fixpoint_monotone]
theorem monotone_pSort' {γ} [PartialOrder γ] (f : γ → Rec) (hf : monotone f)  :
    monotone (fun x => pSort (f x)) := by
  apply monotone_of_monotone_apply; intro ts; exact monotone_pSort f hf  ts

theorem pBound_mono (ts : List Tok) : monotone (fun r : Rec => pBound r ts) := by
  unfold pBound
  repeat monotonicity

@[partial_fixpoint_monotone]
theorem monotone_pBound {γ} [PartialOrder γ] (f : γ → Rec) (hf : monotone f) (ts : List Tok) :
    monotone (fun x => pBound (f x) ts) := by
  exact fun x y h => pBound_mono ts (f x) (f y) (hf x y h)

@[partial_fixpoint_monotone]
theorem monotone_pBound' {γ} [PartialOrder γ] (f : γ → Rec) (hf : monotone f)  :
    monotone (fun x => pBound (f x)) := by
  apply monotone_of_monotone_apply; intro ts; exact monotone_pBound f hf  ts

theorem optFrame_mono (ts : List Tok) : monotone (fun r : Rec => optFrame r ts) := by
  unfold optFrame
  repeat monotonicity

@[partial_fixpoint_monotone]
theorem monotone_optFrame {γ} [PartialOrder γ] (f : γ → Rec) (hf : monotone f) (ts : List Tok) :
    monotone (fun x => optFrame (f x) ts) := by
  exact fun x y h => optFrame_mono ts (f x) (f y) (hf x y h)

@[partial_fixpoint_monotone]
theorem monotone_optFrame' {γ} [PartialOrder γ] (f : γ → Rec) (hf : monotone f)  :
    monotone (fun x => optFrame (f x)) := by
  apply monotone_of_monotone_apply; intro ts; exact monotone_optFrame f hf  ts

theorem optPartition_mono (ts : List Tok) : monotone (fun r : Rec => optPartition r ts) := by
  unfold optPartition
  repeat monotonicity

@[partial_fixpoint_monotone]
theorem monotone_optPartition {γ} [PartialOrder γ] (f : γ → Rec) (hf : monotone f) (ts : List Tok) :
    monotone (fun x => optPartition (f x) ts) := by
  exact fun x y h => optPartition_mono ts (f x) (f y) (hf x y h)

@[partial_fixpoint_monotone]
theorem monotone_optPartition' {γ} [PartialOrder γ] (f : γ → Rec) (hf : monotone f)  :
    monotone (fun x => optPartition (f x)) := by
  apply monotone_of_monotone_apply; intro ts; exact monotone_optPartition f hf  ts

theorem pWin_mono (ts : List Tok) : monotone (fun r : Rec => pWin r ts) := by
  unfold pWin
  repeat monotonicity

@[partial_fixpoint_monotone]
theorem monotone_pWin {γ} [PartialOrder γ] (f : γ → Rec) (hf : monotone f) (ts : List Tok) :
    monotone (fun x => pWin (f x) ts) := by
  exact fun x y h => pWin_mono ts (f x) (f y) (hf x y h)

@[partial_fixpoint_monotone]
theorem monotone_pWin' {γ} [PartialOrder γ] (f : γ → Rec) (hf : monotone f)  :
    monotone (fun x => pWin (f x)) := by
  apply monotone_of_monotone_apply; intro ts; exact monotone_pWin f hf  ts

theorem optWith_mono (ts : List Tok) : monotone (fun r : Rec => optWith r ts) := by
  unfold optWith
  repeat monotonicity

@[partial_fixpoint_monotone]
theorem monotone_optWith {γ} [PartialOrder γ] (f : γ → Rec) (hf : monotone f) (ts : List Tok) :
    monotone (fun x => optWith (f x) ts) := by
  exact fun x y h => optWith_mono ts (f x) (f y) (hf x y h)

@[partial_fixpoint_monotone]
theorem monotone_optWith' {γ} [PartialOrder γ] (f : γ → Rec) (hf : monotone f)  :
    monotone (fun x => optWith (f x)) := by
  apply monotone_of_monotone_apply; intro ts; exact monotone_optWith f hf  ts

theorem pQuery_mono (ts : List Tok) : monotone (fun r : Rec => pQuery r ts) := by
  unfold pQuery
  repeat monotonicity

@[partial_fixpoint_monotone]
theorem monotone_pQuery {γ} [PartialOrder γ] (f : γ → Rec) (hf : monotone f) (ts : List Tok) :
    monotone (fun x => pQuery (f x) ts) := by
  exact fun x y h => pQuery_mono ts (f x) (f y) (hf x y h)

@[partial_fixpoint_monotone]
theorem monotone_pQuery' {γ} [PartialOrder γ] (f : γ → Rec) (hf : monotone f)  :
    monotone (fun x => pQuery (f x)) := by
  apply monotone_of_monotone_apply; intro ts; exact monotone_pQuery f hf  ts

theorem pNamed_mono (ts : List Tok) : monotone (fun r : Rec => pNamed r ts) := by
  unfold pNamed
  repeat monotonicity

@[partial_fixpoint_monotone]
theorem monotone_pNamed {γ} [PartialOrder γ] (f : γ → Rec) (hf : monotone f) (ts : List Tok) :
    monotone (fun x => pNamed (f x) ts) := by
  exact fun x y h => pNamed_mono ts (f x) (f y) (hf x y h)

@[partial_fixpoint_monotone]
theorem monotone_pNamed' {γ} [PartialOrder γ] (f : γ → Rec) (hf : monotone f)  :
    monotone (fun x => pNamed (f x)) := by
  apply monotone_of_monotone_apply; intro ts; exact monotone_pNamed f hf  ts

theorem pQnw_mono (ts : List Tok) : monotone (fun r : Rec => pQnw r ts) := by
  unfold pQnw
  repeat monotonicity

@[partial_fixpoint_monotone]
theorem monotone_pQnw {γ} [PartialOrder γ] (f : γ → Rec) (hf : monotone f) (ts : List Tok) :
    monotone (fun x => pQnw (f x) ts) := by
  exact fun x y h => pQnw_mono ts (f x) (f y) (hf x y h)

@[partial_fixpoint_monotone]
theorem monotone_pQnw' {γ} [PartialOrder γ] (f : γ → Rec) (hf : monotone f)  :
    monotone (fun x => pQnw (f x)) := by
  apply monotone_of_monotone_apply; intro ts; exact monotone_pQnw f hf  ts

theorem pQLoop_mono (p : Nat) (acc : CQT) (ts : List Tok) : monotone (fun r : Rec => pQLoop r p acc ts) := by
  unfold pQLoop
  repeat monotonicity

@[partial_fixpoint_monotone]
theorem monotone_pQLoop {γ} [PartialOrder γ] (f : γ → Rec) (hf : monotone f) (p : Nat) (acc : CQT) (ts : List Tok) :
    monotone (fun x => pQLoop (f x) p acc ts) := by
  exact fun x y h => pQLoop_mono p acc ts (f x) (f y) (hf x y h)

@[partial_fixpoint_monotone]
theorem monotone_pQLoop' {γ} [PartialOrder γ] (f : γ → Rec) (hf : monotone f) (p : Nat) (acc : CQT) :
    monotone (fun x => pQLoop (f x) p acc) := by
  apply monotone_of_monotone_apply; intro ts; exact monotone_pQLoop f hf p acc ts

theorem optFrom_mono (ts : List Tok) : monotone (fun r : Rec => optFrom r ts) := by
  unfold optFrom
  repeat monotonicity

@[partial_fixpoint_monotone]
theorem monotone_optFrom {γ} [PartialOrder γ] (f : γ → Rec) (hf : monotone f) (ts : List Tok) :
    monotone (fun x => optFrom (f x) ts) := by
  exact fun x y h => optFrom_mono ts (f x) (f y) (hf x y h)

@[partial_fixpoint_monotone]
theorem monotone_optFrom' {γ} [PartialOrder γ] (f : γ → Rec) (hf : monotone f)  :
    monotone (fun x => optFrom (f x)) := by
  apply monotone_of_monotone_apply; intro ts; exact monotone_optFrom f hf  ts

theorem optGroup_mono (ts : List Tok) : monotone (fun r : Rec => optGroup r ts) := by
  unfold optGroup
  repeat monotonicity

@[partial_fixpoint_monotone]
theorem monotone_optGroup {γ} [PartialOrder γ] (f : γ → Rec) (hf : monotone f) (ts : List Tok) :
    monotone (fun x => optGroup (f x) ts) := by
  exact fun x y h => optGroup_mono ts (f x) (f y) (hf x y h)

@[partial_fixpoint_monotone]
theorem monotone_optGroup' {γ} [PartialOrder γ] (f : γ → Rec) (hf : monotone f)  :
    monotone (fun x => optGroup (f x)) := by
  apply monotone_of_monotone_apply; intro ts; exact monotone_optGroup f hf  ts

theorem optWindow_mono (ts : List Tok) : monotone (fun r : Rec => optWindow r ts) := by
  unfold optWindow
  repeat monotonicity

@[partial_fixpoint_monotone]
theorem monotone_optWindow {γ} [PartialOrder γ] (f : γ → Rec) (hf : monotone f) (ts : List Tok) :
    monotone (fun x => optWindow (f x) ts) := by
  exact fun x y h => optWindow_mono ts (f x) (f y) (hf x y h)

@[partial_fixpoint_monotone]
theorem monotone_optWindow' {γ} [PartialOrder γ] (f : γ → Rec) (hf : monotone f)  :
    monotone (fun x => optWindow (f x)) := by
  apply monotone_of_monotone_apply; intro ts; exact monotone_optWindow f hf  ts

theorem pSelect_mono (ts : List Tok) : monotone (fun r : Rec => pSelect r ts) := by
  unfold pSelect
  repeat monotonicity

@[partial_fixpoint_monotone]
theorem monotone_pSelect {γ} [PartialOrder γ] (f : γ → Rec) (hf : monotone f) (ts : List Tok) :
    monotone (fun x => pSelect (f x) ts) := by
  exact fun x y h => pSelect_mono ts (f x) (f y) (hf x y h)

@[partial_fixpoint_monotone]
theorem monotone_pSelect' {γ} [PartialOrder γ] (f : γ → Rec) (hf : monotone f)  :
    monotone (fun x => pSelect (f x)) := by
  apply monotone_of_monotone_apply; intro ts; exact monotone_pSelect f hf  ts

theorem pQPrimary_mono (ts : List Tok) : monotone (fun r : Rec => pQPrimary r ts) := by
  unfold pQPrimary
  repeat monotonicity

@[partial_fixpoint_monotone]
theorem monotone_pQPrimary {γ} [PartialOrder γ] (f : γ → Rec) (hf : monotone f) (ts : List Tok) :
    monotone (fun x => pQPrimary (f x) ts) := by
  exact fun x y h => pQPrimary_mono ts (f x) (f y) (hf x y h)

@[partial_fixpoint_monotone]
theorem monotone_pQPrimary' {γ} [PartialOrder γ] (f : γ → Rec) (hf : monotone f)  :
    monotone (fun x => pQPrimary (f x)) := by
  apply monotone_of_monotone_apply; intro ts; exact monotone_pQPrimary f hf  ts

theorem pQTerm_mono (p : Nat) (ts : List Tok) : monotone (fun r : Rec => pQTerm r p ts) := by
  unfold pQTerm
  repeat monotonicity

@[partial_fixpoint_monotone]
theorem monotone_pQTerm {γ} [PartialOrder γ] (f : γ → Rec) (hf : monotone f) (p : Nat) (ts : List Tok) :
    monotone (fun x => pQTerm (f x) p ts) := by
  exact fun x y h => pQTerm_mono p ts (f x) (f y) (hf x y h)

@[partial_fixpoint_monotone]
theorem monotone_pQTerm' {γ} [PartialOrder γ] (f : γ → Rec) (hf : monotone f) (p : Nat) :
    monotone (fun x => pQTerm (f x) p) := by
  apply monotone_of_monotone_apply; intro ts; exact monotone_pQTerm f hf p ts

theorem pItem_mono (ts : List Tok) : monotone (fun r : Rec => pItem r ts) := by
  unfold pItem
  repeat monotonicity

@[partial_fixpoint_monotone]
theorem monotone_pItem {γ} [PartialOrder γ] (f : γ → Rec) (hf : monotone f) (ts : List Tok) :
    monotone (fun x => pItem (f x) ts) := by
  exact fun x y h => pItem_mono ts (f x) (f y) (hf x y h)

@[partial_fixpoint_monotone]
theorem monotone_pItem' {γ} [PartialOrder γ] (f : γ → Rec) (hf : monotone f)  :
    monotone (fun x => pItem (f x)) := by
  apply monotone_of_monotone_apply; intro ts; exact monotone_pItem f hf  ts

theorem pSet_mono (ts : List Tok) : monotone (fun r : Rec => pSet r ts) := by
  unfold pSet
  repeat monotonicity

@[partial_fixpoint_monotone]
theorem monotone_pSet {γ} [PartialOrder γ] (f : γ → Rec) (hf : monotone f) (ts : List Tok) :
    monotone (fun x => pSet (f x) ts) := by
  exact fun x y h => pSet_mono ts (f x) (f y) (hf x y h)

@[partial_fixpoint_monotone]
theorem monotone_pSet' {γ} [PartialOrder γ] (f : γ → Rec) (hf : monotone f)  :
    monotone (fun x => pSet (f x)) := by
  apply monotone_of_monotone_apply; intro ts; exact monotone_pSet f hf  ts

theorem pGrp_mono (ts : List Tok) : monotone (fun r : Rec => pGrp r ts) := by
  unfold pGrp
  repeat monotonicity

@[partial_fixpoint_monotone]
theorem monotone_pGrp {γ} [PartialOrder γ] (f : γ → Rec) (hf : monotone f) (ts : List Tok) :
    monotone (fun x => pGrp (f x) ts) := by
  exact fun x y h => pGrp_mono ts (f x) (f y) (hf x y h)

@[partial_fixpoint_monotone]
theorem monotone_pGrp' {γ} [PartialOrder γ] (f : γ → Rec) (hf : monotone f)  :
    monotone (fun x => pGrp (f x)) := by
  apply monotone_of_monotone_apply; intro ts; exact monotone_pGrp f hf  ts

theorem pWinDef_mono (ts : List Tok) : monotone (fun r : Rec => pWinDef r ts) := by
  unfold pWinDef
  repeat monotonicity

@[partial_fixpoint_monotone]
theorem monotone_pWinDef {γ} [PartialOrder γ] (f : γ → Rec) (hf : monotone f) (ts : List Tok) :
    monotone (fun x => pWinDef (f x) ts) := by
  exact fun x y h => pWinDef_mono ts (f x) (f y) (hf x y h)

@[partial_fixpoint_monotone]
theorem monotone_pWinDef' {γ} [PartialOrder γ] (f : γ → Rec) (hf : monotone f)  :
    monotone (fun x => pWinDef (f x)) := by
  apply monotone_of_monotone_apply; intro ts; exact monotone_pWinDef f hf  ts

theorem pCrit_mono (ts : List Tok) : monotone (fun r : Rec => pCrit r ts) := by
  unfold pCrit
  repeat monotonicity

@[partial_fixpoint_monotone]
theorem monotone_pCrit {γ} [PartialOrder γ] (f : γ → Rec) (hf : monotone f) (ts : List Tok) :
    monotone (fun x => pCrit (f x) ts) := by
  exact fun x y h => pCrit_mono ts (f x) (f y) (hf x y h)

@[partial_fixpoint_monotone]
theorem monotone_pCrit' {γ} [PartialOrder γ] (f : γ → Rec) (hf : monotone f)  :
    monotone (fun x => pCrit (f x)) := by
  apply monotone_of_monotone_apply; intro ts; exact monotone_pCrit f hf  ts

theorem pRelPrimary_mono (ts : List Tok) : monotone (fun r : Rec => pRelPrimary r ts) := by
  unfold pRelPrimary
  repeat monotonicity

@[partial_fixpoint_monotone]
theorem monotone_pRelPrimary {γ} [PartialOrder γ] (f : γ → Rec) (hf : monotone f) (ts : List Tok) :
    monotone (fun x => pRelPrimary (f x) ts) := by
  exact fun x y h => pRelPrimary_mono ts (f x) (f y) (hf x y h)

@[partial_fixpoint_monotone]
theorem monotone_pRelPrimary' {γ} [PartialOrder γ] (f : γ → Rec) (hf : monotone f)  :
    monotone (fun x => pRelPrimary (f x)) := by
  apply monotone_of_monotone_apply; intro ts; exact monotone_pRelPrimary f hf  ts

theorem pAliased_mono (ts : List Tok) : monotone (fun r : Rec => pAliased r ts) := by
  unfold pAliased
  repeat monotonicity

@[partial_fixpoint_monotone]
theorem monotone_pAliased {γ} [PartialOrder γ] (f : γ → Rec) (hf : monotone f) (ts : List Tok) :
    monotone (fun x => pAliased (f x) ts) := by
  exact fun x y h => pAliased_mono ts (f x) (f y) (hf x y h)

@[partial_fixpoint_monotone]
theorem monotone_pAliased' {γ} [PartialOrder γ] (f : γ → Rec) (hf : monotone f)  :
    monotone (fun x => pAliased (f x)) := by
  apply monotone_of_monotone_apply; intro ts; exact monotone_pAliased f hf  ts

theorem pSampled_mono (ts : List Tok) : monotone (fun r : Rec => pSampled r ts) := by
  unfold pSampled
  repeat monotonicity

@[partial_fixpoint_monotone]
theorem monotone_pSampled {γ} [PartialOrder γ] (f : γ → Rec) (hf : monotone f) (ts : List Tok) :
    monotone (fun x => pSampled (f x) ts) := by
  exact fun x y h => pSampled_mono ts (f x) (f y) (hf x y h)

@[partial_fixpoint_monotone]
theorem monotone_pSampled' {γ} [PartialOrder γ] (f : γ → Rec) (hf : monotone f)  :
    monotone (fun x => pSampled (f x)) := by
  apply monotone_of_monotone_apply; intro ts; exact monotone_pSampled f hf  ts

theorem pRelLoop_mono (acc : CR) (ts : List Tok) : monotone (fun r : Rec => pRelLoop r acc ts) := by
  unfold pRelLoop
  repeat monotonicity

@[partial_fixpoint_monotone]
theorem monotone_pRelLoop {γ} [PartialOrder γ] (f : γ → Rec) (hf : monotone f) (acc : CR) (ts : List Tok) :
    monotone (fun x => pRelLoop (f x) acc ts) := by
  exact fun x y h => pRelLoop_mono acc ts (f x) (f y) (hf x y h)

@[partial_fixpoint_monotone]
theorem monotone_pRelLoop' {γ} [PartialOrder γ] (f : γ → Rec) (hf : monotone f) (acc : CR) :
    monotone (fun x => pRelLoop (f x) acc) := by
  apply monotone_of_monotone_apply; intro ts; exact monotone_pRelLoop f hf acc ts

theorem pStep_mono : monotone pStep := by
  unfold pStep
  apply monotone_of_monotone_apply
  intro nt
  cases nt <;> dsimp only <;> repeat monotonicity

end Treeno
