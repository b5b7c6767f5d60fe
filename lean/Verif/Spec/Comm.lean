import Verif.Spec.GsOp

/-!
# Specification of comm_scan and comm_allreduce
-/

namespace Gslib.Spec

/-- `v b ∘ v (b+1) ∘ ... ∘ v (b+k)`, from left to right -/
def foldRanks {M : Type} (g : M → M → M) (v : Nat → M) (b : Nat) : Nat → M
  | 0 => v b
  | k + 1 => g (foldRanks g v b k) (v (b + k + 1))

/-- reduction of all of `v 0, ..., v (np-1)`, `np > 0` -/
def reduceAll {M : Type} (g : M → M → M) (v : Nat → M) (np : Nat) : M := foldRanks g v 0 (np - 1)

/-- reduction of `v 0, ..., v (p-1)`, the identity `e` for `p = 0` -/
def reduceBefore {M : Type} (g : M → M → M) (e : M) (v : Nat → M) : Nat → M
  | 0 => e
  | p + 1 => foldRanks g v 0 p

end Gslib.Spec
