import Verif.Spec.Gs
import Mathlib.Algebra.BigOperators.Group.Finset.Sigma

/-!
# Sums over all entries of all processes
-/

namespace Gslib.Spec

/-- sum over all entries of all processes -/
def total {K : Type} [AddCommMonoid K] (np : Nat) (ids : Nat → List Int) (f : Nat → Nat → K) : K :=
  ∑ q ∈ Finset.range np, ∑ i ∈ Finset.range (ids q).length, f q i

/-- the distinct nonzero ids (without sign) of all processes -/
def allIds (np : Nat) (ids : Nat → List Int) : Finset Nat :=
  ((Finset.range np).biUnion fun q => ((ids q).map Int.natAbs).toFinset).erase 0

end Gslib.Spec
