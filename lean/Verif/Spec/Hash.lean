import Verif.Model.Hash

/-!
# Specification of the element hash table
-/

namespace Gslib.Spec
open Gslib.Num Gslib.Hash
variable {K : Type} [LinearOrder K]

/-- the entries of cell `c`, read the way the search does (findpts_local_imp.h:274-281): `offset[offset[c]], …, offset[offset[c+1]-1]`; `none` if
any of the accesses is out of bounds or reads an entry that was never written -/
def readBucket (size : Nat) (off : Mem Nat) (c : Nat) : Option (List Nat) :=
  (rd size off c).bind fun a => (rd size off (c + 1)).bind fun b => (List.range (b - a)).mapM fun i => rd size off (a + i)

/-- `x` lies in the box, upper faces excluded -/
def InHalfOpenBox (box : List (Range K)) (x : List K) : Prop :=
  x.length = box.length ∧ ∀ (d : Nat) r y, box[d]? = some r → x[d]? = some y → r.min ≤ y ∧ y < r.max

/-- proper boxes of dimension `D` -/
def ProperBoxes (D : Nat) (obb : List (List (Range K))) : Prop := ∀ b ∈ obb, b.length = D ∧ ∀ r ∈ b, r.min < r.max

/-- with bound `b` cut into `n` equal cells, the interior of `r` meets the interior of cell `i`, `(b.min+i*w, b.min+(i+1)*w)` with `w=(b.max-b.min)/n` -/
def MeetsCell [Field K] (n : Nat) (b r : Range K) (i : Nat) : Prop :=
  (r.min - b.min) * n < (i + 1) * (b.max - b.min) ∧ i * (b.max - b.min) < (r.max - b.min) * n

/-- the interior of the box meets the interior of cell number `c`; the digits of `c` in base `n` are the coordinates of the cell, the first coordinate being the lowest digit -/
def BoxMeetsCell [Field K] (n : Nat) (bnd box : List (Range K)) (c : Nat) : Prop :=
  c < n ^ bnd.length ∧ ∀ (d : Nat) b r, bnd[d]? = some b → box[d]? = some r → MeetsCell n b r (c / n ^ d % n)

end Gslib.Spec
