import Verif.Spec.Meaning
/-!
# A concrete model

Integers, decimals, strings and truth values with NULL; columns are looked up in the environment, sums are
sums of integers.  Used to evaluate examples.
-/
set_option autoImplicit false
namespace Treeno.Spec

inductive Val
  | null | bool (b : Bool) | int (n : Int) | dec (d : Dec) | text (s : Str) | other
  deriving DecidableEq

def Val.truth : Val → Option Bool
  | .bool b => some b
  | _ => none

def Val.ofTruth : Option Bool → Val
  | some b => .bool b
  | none => .null

/-- A comparison of integers; anything else is unknown. -/
def Val.cmp (p : Int → Int → Bool) : Val → Val → Option Bool
  | .int a, .int b => some (p a b)
  | _, _ => none

def Val.equal : Val → Val → Option Bool
  | .null, _ => none
  | _, .null => none
  | a, b => some (decide (a = b))

def Val.negate : Val → Val
  | .int n => .int (-n)
  | .dec d => .dec { d with neg := !d.neg }
  | v => v

abbrev ValEnv : Type := Option Str → Str → Val

def Val.op : Label → List (ValEnv → Val) → ValEnv → Val
  | .column t n, _, env => env t n
  | .text s, _, _ => .text s
  | .arith .add, [a, b], env => match a env, b env with
    | .int x, .int y => .int (x + y)
    | .null, _ => .null
    | _, .null => .null
    | _, _ => .other
  | .plus, [a], env => a env
  | .call _ _, _, _ => .other
  | .limit _, _, _ => .other
  | _, _, _ => .null

def intModel : Model where
  Env := ValEnv
  V := Val
  truth := Val.truth
  ofTruth := Val.ofTruth
  truth_ofTruth b := by cases b <;> rfl
  isNull v := decide (v = .null)
  equal := Val.equal
  greater := Val.cmp fun a b => decide (b < a)
  atLeast := Val.cmp fun a b => decide (b ≤ a)
  less := Val.cmp fun a b => decide (a < b)
  atMost := Val.cmp fun a b => decide (a ≤ b)
  distinct a b := decide (a ≠ b)
  like a b _ := Val.equal a b
  among _ _ _ := none
  int := .int
  dec := .dec
  negate := Val.negate
  negate_int _ := rfl
  negate_dec _ := rfl
  op := Val.op

end Treeno.Spec
