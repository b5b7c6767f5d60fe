import Verif.Spec.Newton3

/-!
# Specification: when a search may be called converged (3D)
-/

namespace Gslib.Spec
open Gslib.El

variable {K : Type} [Field K] [LinearOrder K]

/-- half the negative derivative of the squared distance in direction `d` at `r`: positive when the distance decreases with growing `r d` -/
def ElMap3.descent (E : ElMap3 K) (x r : Fin 3 → K) (d : Fin 3) : K := (x 0 - E.X r 0) * E.J r 0 d + (x 1 - E.X r 1) * E.J r 1 d + (x 2 - E.X r 2) * E.J r 2 d

/-- an entry of `J^T J` -/
def ElMap3.jtj (E : ElMap3 K) (r : Fin 3 → K) (d e : Fin 3) : K := E.J r 0 d * E.J r 0 e + E.J r 1 d * E.J r 1 e + E.J r 2 d * E.J r 2 e

/-- a scale for the derivatives in direction `d`: entries of `J^T J` and the second derivative terms -/
def ElMap3.scale (E : ElMap3 K) (x r : Fin 3 → K) (d : Fin 3) : K :=
  |E.jtj r d 0| + |E.jtj r d 1| + |E.jtj r d 2| + (|E.rh x r d 0| + |E.rh x r d 1| + |E.rh x r d 2|)

/-- up to the tolerance no admissible direction from `r` decreases the distance; a coordinate at the bound of the element in `r'` may have its descent direction pointing out of the element -/
def NearOpt3 (E : ElMap3 K) (x r r' : Fin 3 → K) (tol : K) : Prop :=
  ∀ d, (r' d < 1 → E.descent x r d ≤ E.scale x r d * tol) ∧ (-1 < r' d → -(E.scale x r d * tol) ≤ E.descent x r d)

/-- the same for the coordinates that are strictly inside of the element only -/
def InnerOpt3 (E : ElMap3 K) (x r r' : Fin 3 → K) (tol : K) : Prop := ∀ d, -1 < r' d → r' d < 1 → |E.descent x r d| ≤ E.scale x r d * tol

/-- the step ended on the boundary of the element, from a point whose held coordinates were all to be released (their descent direction points into the element); what is known of the derivatives is limited to the coordinates
strictly inside -/
def StalledOnBoundary (E : ElMap3 K) (p p' : Pt K 3) (tol : K) : Prop :=
  (∃ d, p'.r d = 1 ∨ p'.r d = -1) ∧ InnerOpt3 E p.x p.r p'.r tol ∧ ∀ c C, p.flags &&& 0x7f = lowFlags3 c C → ∀ d, c d ≠ .free → E.descent p.x p.r d * p.r d < 0

end Gslib.Spec
