import Verif.Spec.Newton2

/-!
# Specification: when a search may be called converged (2D)
-/

namespace Gslib.Spec
open Gslib.El

variable {K : Type} [Field K] [LinearOrder K]

/-- half the negative derivative of the squared distance in direction `d` at `r`: positive when the distance decreases with growing `r d` -/
def ElMap.descent (E : ElMap K) (x r : Fin 2 → K) (d : Fin 2) : K := (x 0 - E.X r 0) * E.J r ⟨d, by omega⟩ + (x 1 - E.X r 1) * E.J r ⟨2 + d, by omega⟩

/-- a scale for the derivatives in direction `d`: entries of `J^T J` and the second derivative term -/
def ElMap.scale (E : ElMap K) (x r : Fin 2 → K) (d : Fin 2) : K :=
  |E.J r ⟨d, by omega⟩ * E.J r 0 + E.J r ⟨2 + d, by omega⟩ * E.J r 2| + |E.J r ⟨d, by omega⟩ * E.J r 1 + E.J r ⟨2 + d, by omega⟩ * E.J r 3| +
    |(x 0 - E.X r 0) * E.H r ⟨d, by omega⟩ + (x 1 - E.X r 1) * E.H r ⟨2 + d, by omega⟩|

/-- up to the tolerance no admissible direction from `r` decreases the distance; a coordinate at the bound of the element in `r'` may have its descent direction pointing out of the element -/
def NearOpt (E : ElMap K) (x r r' : Fin 2 → K) (tol : K) : Prop :=
  ∀ d, (r' d < 1 → E.descent x r d ≤ E.scale x r d * tol) ∧ (-1 < r' d → -(E.scale x r d * tol) ≤ E.descent x r d)

/-- the step stopped at a corner of the element without moving in one of the directions, and the point was not held in both directions before -/
def StalledAtCorner (p p' : Pt K 2) : Prop := (∀ d, p'.r d = 1 ∨ p'.r d = -1) ∧ (∃ d, p'.r d = p.r d) ∧ numConstrained2 (p.flags &&& 0x1f) ≤ 1

end Gslib.Spec
