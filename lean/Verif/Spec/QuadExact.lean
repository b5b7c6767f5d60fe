import Verif.Spec.Legendre
import Mathlib.Algebra.BigOperators.Group.Finset.Basic
import Mathlib.Algebra.Order.BigOperators.Ring.Finset
import Mathlib.Algebra.Polynomial.Eval.Degree

/-!
# Quadrature rules

The rule with nodes `v 0, ..., v (n-1)` and weights `u 0, ..., u (n-1)` replaces `∫ f` over `[-1,1]` by `∑ u i * f (v i)`. By the fundamental
theorem of calculus it is exact for the derivative of `q` iff `∑ u i * q' (v i) = q 1 - q (-1)`.
-/

namespace Gslib.Spec
open Polynomial
variable {K : Type} [Field K]

/-- the rule integrates every polynomial of degree at most `d` exactly -/
def ExactUpTo (n d : Nat) (v u : Nat → K) : Prop :=
  ∀ q : K[X], q.natDegree ≤ d + 1 → ∑ i ∈ Finset.range n, u i * (derivative q).eval (v i) = q.eval 1 - q.eval (-1)

end Gslib.Spec
