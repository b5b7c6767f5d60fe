import Verif.Model.Newton2
import Verif.Spec.ElFlags

/-!
# Specification of a step of the point search in 2D
-/

namespace Gslib.Spec
open Gslib.El

variable {K : Type} [Field K] [LinearOrder K]

/-- reference coordinates in `[-1,1]^2`, with the held coordinates exactly at their bound -/
def RefPt (r : Fin 2 → K) (c : Fin 2 → Con) : Prop := ∀ d, -1 ≤ r d ∧ r d ≤ 1 ∧ (c d = .lo → r d = -1) ∧ (c d = .hi → r d = 1)

/-- the five low flag bits: configuration and converged bit -/
def lowFlags (c : Fin 2 → Con) (C : Bool) : U32 := flags2 (c 0) (c 1) ||| (if C then 16 else 0)

/-- squared residual of the linearised problem: `sum_d (resid_d - sum_j jac_dj dr_j)^2` -/
def linSq (jac : Fin 4 → K) (resid dr : Fin 2 → K) : K := (resid 0 - (jac 0 * dr 0 + jac 1 * dr 1)) ^ 2 + (resid 1 - (jac 2 * dr 0 + jac 3 * dr 1)) ^ 2

/-- a step from `p` to `p'` (`out` holds the fields already set): stays in the element and in the trust region, `p'` has the configuration `c`, the previous flags are kept in the higher bits and the predicted
decrease is not negative -/
structure StepOk (p out p' : Pt K 2) (c : Fin 2 → Con) (C : Bool) : Prop where
  flags : p'.flags &&& 0x1f = lowFlags c C
  prev : (p'.flags >>> 5) &&& 0x1f = p.flags &&& 0x1f
  ref : RefPt p'.r c
  trust : ∀ d, |p'.r d - p.r d| ≤ p.tr
  pred : 0 ≤ p'.dist2p
  rest : p'.x = out.x ∧ p'.oldr = out.oldr ∧ p'.dist2 = out.dist2 ∧ p'.tr = out.tr ∧ p'.index = out.index

/-- position, Jacobian (`jac (2*d+j)` is the derivative of coordinate `d` in direction `j`) and unmixed second derivatives of an element map, as functions of the reference coordinates -/
structure ElMap (K : Type) where
  X : (Fin 2 → K) → Fin 2 → K
  J : (Fin 2 → K) → Fin 4 → K
  H : (Fin 2 → K) → Fin 4 → K

/-- squared distance of `x` to the image of `r` -/
def ElMap.dist2 (E : ElMap K) (x r : Fin 2 → K) : K := (x 0 - E.X r 0) ^ 2 + (x 1 - E.X r 1) ^ 2

/-- the residual -/
def ElMap.resid (E : ElMap K) (x r : Fin 2 → K) : Fin 2 → K := ![x 0 - E.X r 0, x 1 - E.X r 1]

/-- one step of the search for point `p`: by the number of constraints -/
def stepPt2 (E : ElMap K) (fuel : Nat) (big tol : K) (p : Pt K 2) : Option (Pt K 2) :=
  if numConstrained2 (p.flags &&& 0x1f) = 0 then areaPoint fuel big tol (E.resid p.x p.r) (E.J p.r) p
  else if numConstrained2 (p.flags &&& 0x1f) = 1 then
    (dim2 (edgeIndex2 (p.flags &&& 0x1f) >>> 1)).bind fun dn => (dim2 (plus1mod2 (edgeIndex2 (p.flags &&& 0x1f) >>> 1))).bind fun de =>
    edgePoint fuel big tol (E.resid p.x p.r) (E.J p.r) (E.resid p.x p.r 0 * E.H p.r (col0 de) + E.resid p.x p.r 1 * E.H p.r (col1 de)) de dn (p.flags &&& 0x1f) p
  else ptPoint fuel big tol (E.X p.r) (E.J p.r) (E.H p.r) (p.flags &&& 0x1f) p

end Gslib.Spec
