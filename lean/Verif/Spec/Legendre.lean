import Mathlib.Algebra.Polynomial.Derivative
import Mathlib.Algebra.CharZero.Defs

/-!
# Legendre polynomials

The Legendre polynomial `P_n` by Rodrigues' formula `P_n = (1 / (2^n n!)) (d/dX)^n (X^2-1)^n`.
-/

namespace Gslib.Spec
open Polynomial
variable (K : Type) [Field K]

/-- Rodrigues' formula -/
noncomputable def legendreP (n : Nat) : K[X] := C ((2 ^ n * (n.factorial : K))⁻¹) * derivative^[n] ((X ^ 2 - 1) ^ n)

end Gslib.Spec
