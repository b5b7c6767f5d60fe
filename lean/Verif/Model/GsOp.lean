import Mathlib.Order.Defs.LinearOrder
import Mathlib.Algebra.Ring.Defs

/-!
# The reduction operations (gs_defs.h)

`w`: width of the integer domain (`int`: 32, `long`, `long long`: 64), `u`: width of `uint`
(types.h: `unsigned int`, or `unsigned long (long)` when gslib is configured with wider local indices).
Signed overflow of `add`/`mul`, undefined in C, wraps in the model.
-/

namespace Gslib.Gs

/-- gs_defs.h:27-32 and 74-79 (enum `gs_op`) -/
inductive Op where
  | add | mul | min | max | bpr
  deriving DecidableEq, Repr

/-- a domain: gs_defs.h:34-48 `GS_DO_op(a,b)` (the new value of `a`) and `gs_identity_T[op]` -/
structure Dom (T : Type) where
  doOp : Op → T → T → T
  identity : Op → T

/-- gs_defs.h:42, the loop `for(;;) { if(a_<b_) b_>>=1; else if(b_<a_) a_>>=1; else break; }`, then `a_` -/
def bprLoop (a b : Nat) : Nat :=
  if a < b then bprLoop a (b >>> 1) else if b < a then bprLoop (a >>> 1) b else a
  termination_by a + b
  decreasing_by
    · simp only [Nat.shiftRight_eq_div_pow]; omega
    · simp only [Nat.shiftRight_eq_div_pow]; omega

/-- gs_defs.h:38-44 `GS_DO_bpr` on a `w`-bit signed domain; the C conversions to and from the unsigned `u`-bit type `uint`
(`uint a_ = a; uint b_ = b; ... a = a_`): from a signed type sign extends or truncates, to a signed type zero extends or truncates -/
def doBpr (u : Nat) {w : Nat} (a b : BitVec w) : BitVec w :=
  if b ≠ 0 then
    let a_ : BitVec u := a.signExtend u
    let b_ : BitVec u := b.signExtend u
    if a_ = 0 then b_.setWidth w
    else (BitVec.ofNat u (bprLoop a_.toNat b_.toNat)).setWidth w
  else a

/-- gs_defs.h:34-54, the integer domains: `GS_DO_add .. GS_DO_bpr`, identities `{ 0, 1, max, min, 0 }` -/
def intDom (u w : Nat) : Dom (BitVec w) where
  doOp
    | .add, a, b => a + b
    | .mul, a, b => a * b
    | .min, a, b => if b.slt a then b else a
    | .max, a, b => if a.slt b then b else a
    | .bpr, a, b => doBpr u a b
  identity
    | .add => 0
    | .mul => 1
    | .min => BitVec.intMax w
    | .max => BitVec.intMin w
    | .bpr => 0

/-- gs_defs.h:34-54, the floating point domains in exact arithmetic over an ordered ring `K`; `big` is `DBL_MAX`/`FLT_MAX`.
`toU`, `ofU`: the conversions between the domain and `uint` in `GS_DO_bpr`. -/
def realDom {K : Type} [CommRing K] [LinearOrder K] (big : K) (toU : K → Nat) (ofU : Nat → K) : Dom K where
  doOp
    | .add, a, b => a + b
    | .mul, a, b => a * b
    | .min, a, b => if b < a then b else a
    | .max, a, b => if b > a then b else a
    | .bpr, a, b => if b ≠ 0 then (if toU a = 0 then ofU (toU b) else ofU (bprLoop (toU a) (toU b))) else a
  identity
    | .add => 0
    | .mul => 1
    | .min => big
    | .max => -big
    | .bpr => 0

/-- gs_local.c:30-35 `gather_array_T_OP`: `for(;n;--n) { T q = *in++, *p = out++; GS_DO_OP(*p,q); }`
(both arrays have `n` entries) -/
def gatherArray {T : Type} (D : Dom T) (op : Op) : List T → List T → List T
  | p :: out, q :: inp => D.doOp op p q :: gatherArray D op out inp
  | out, _ => out

/-- gs_local.c:40-45 `init_array_T`: `for(;n;--n) *out++=e;` -/
def initArray {T : Type} (D : Dom T) (op : Op) : Nat → List T
  | 0 => []
  | n + 1 => D.identity op :: initArray D op n

end Gslib.Gs
