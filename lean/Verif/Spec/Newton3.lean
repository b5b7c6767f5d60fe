import Verif.Model.Newton3
import Verif.Spec.ElFlags

/-!
# Specification of a step of the point search in 3D
-/

namespace Gslib.Spec
open Gslib.El

variable {K : Type} [Field K] [LinearOrder K]

/-- reference coordinates in `[-1,1]^3`, with the held coordinates exactly at their bound -/
def RefPt3 (r : Fin 3 → K) (c : Fin 3 → Con) : Prop := ∀ d, -1 ≤ r d ∧ r d ≤ 1 ∧ (c d = .lo → r d = -1) ∧ (c d = .hi → r d = 1)

/-- the seven low flag bits: configuration and converged bit -/
def lowFlags3 (c : Fin 3 → Con) (C : Bool) : U32 := flags3 (c 0) (c 1) (c 2) ||| (if C then 64 else 0)

/-- determinant of a 3 by 3 matrix -/
def det3 (J : Fin 3 → Fin 3 → K) : K := J 0 0 * (J 1 1 * J 2 2 - J 1 2 * J 2 1) + J 0 1 * (J 1 2 * J 2 0 - J 1 0 * J 2 2) + J 0 2 * (J 1 0 * J 2 1 - J 1 1 * J 2 0)

/-- squared residual of the linearised problem: `sum_d (resid_d - sum_j J_dj dr_j)^2` -/
def linSq3 (J : Fin 3 → Fin 3 → K) (resid dr : Fin 3 → K) : K :=
  (resid 0 - (J 0 0 * dr 0 + J 0 1 * dr 1 + J 0 2 * dr 2)) ^ 2 + (resid 1 - (J 1 0 * dr 0 + J 1 1 * dr 1 + J 1 2 * dr 2)) ^ 2 + (resid 2 - (J 2 0 * dr 0 + J 2 1 * dr 1 + J 2 2 * dr 2)) ^ 2

/-- a step from `p` to `p'` (`out` holds the fields already set): stays in the element and in the trust region, `p'` has the configuration `c`, the previous flags are kept in the higher bits and the predicted
decrease is not negative -/
structure StepOk3 (p out p' : Pt K 3) (c : Fin 3 → Con) (C : Bool) : Prop where
  flags : p'.flags &&& 0x7f = lowFlags3 c C
  prev : (p'.flags >>> 7) &&& 0x7f = p.flags &&& 0x7f
  ref : RefPt3 p'.r c
  trust : ∀ d, |p'.r d - p.r d| ≤ p.tr
  pred : 0 ≤ p'.dist2p
  rest : p'.x = out.x ∧ p'.oldr = out.oldr ∧ p'.dist2 = out.dist2 ∧ p'.tr = out.tr ∧ p'.index = out.index

/-- position, Jacobian (`J r d j` is the derivative of coordinate `d` in direction `j`) and second derivatives (of coordinate `d`: rr, rs, rt, ss, st, tt) of an element map, as functions of the reference coordinates -/
structure ElMap3 (K : Type) where
  X : (Fin 3 → K) → Fin 3 → K
  J : (Fin 3 → K) → Fin 3 → Fin 3 → K
  H : (Fin 3 → K) → Fin 3 → Fin 6 → K

/-- squared distance of `x` to the image of `r` -/
def ElMap3.dist2 (E : ElMap3 K) (x r : Fin 3 → K) : K := (x 0 - E.X r 0) ^ 2 + (x 1 - E.X r 1) ^ 2 + (x 2 - E.X r 2) ^ 2

/-- the residual -/
def ElMap3.resid (E : ElMap3 K) (x r : Fin 3 → K) : Fin 3 → K := fun d => x d - E.X r d

/-- the place of the second derivative in directions `i` and `j` in the order rr, rs, rt, ss, st, tt -/
def hix (i j : Fin 3) : Fin 6 := ![![0, 1, 2], ![1, 3, 4], ![2, 4, 5]] i j

/-- the second derivative in directions `i` and `j`, contracted with the residual -/
def ElMap3.rh (E : ElMap3 K) (x r : Fin 3 → K) (i j : Fin 3) : K := E.resid x r 0 * E.H r 0 (hix i j) + E.resid x r 1 * E.H r 1 (hix i j) + E.resid x r 2 * E.H r 2 (hix i j)

/-- one step of the search for point `p`: by the number of constraints -/
def stepPt3 (E : ElMap3 K) (fuel : Nat) (big tol : K) (p : Pt K 3) : Option (Pt K 3) :=
  let f := p.flags &&& 0x7f
  if numConstrained3 f = 0 then volPoint fuel big tol (E.resid p.x p.r) (E.J p.r) p
  else if numConstrained3 f = 1 then
    (dim3 (faceIndex3 f >>> 1)).bind fun dn => (dim3 (plus1mod3 (faceIndex3 f >>> 1))).bind fun d1 => (dim3 (plus2mod3 (faceIndex3 f >>> 1))).bind fun d2 =>
    facePoint fuel big tol (E.resid p.x p.r) (E.J p.r) ![E.rh p.x p.r d1 d1, E.rh p.x p.r d1 d2, E.rh p.x p.r d2 d2] dn d1 d2 f p
  else if numConstrained3 f = 2 then
    (dim3 (edgeIndex3 f >>> 2)).bind fun de => (dim3 (plus1mod3 (edgeIndex3 f >>> 2))).bind fun dn1 => (dim3 (plus2mod3 (edgeIndex3 f >>> 2))).bind fun dn2 =>
    edgePoint3 fuel big tol (E.resid p.x p.r) (E.J p.r) ![E.rh p.x p.r de de, E.rh p.x p.r de dn1, E.rh p.x p.r de dn2, E.rh p.x p.r dn1 dn1, E.rh p.x p.r dn2 dn2] de dn1 dn2 f p
  else ptPoint3 fuel big tol (E.X p.r) (E.J p.r) (E.H p.r) f p

end Gslib.Spec
