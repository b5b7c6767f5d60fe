import Mathlib.Order.Defs.LinearOrder

/-!
# Specification of the choice of gs_auto
-/

namespace Gslib.Spec

/-- `m` is the largest of the `np` numbers `f 0, f 1, ...` -/
def LargestOf {K : Type} [LinearOrder K] (np : Nat) (f : Nat → K) (m : K) : Prop := (∃ q, q < np ∧ f q = m) ∧ ∀ q, q < np → f q ≤ m

end Gslib.Spec
