import Verif.Model.FindptsDrv
import Verif.Model.LinSolve
import Mathlib.Algebra.Order.Ring.Abs

/-!
# One step of the point search in 2D (findpts_el_2.c:278-557)

`double` is replaced by an ordered field `K` (exact arithmetic); a division by zero has no result (`none`), nor does a read of uninitialised data. `jac[2*d+j]` is `jac (2*d+j)`, a function on `Fin 4`.
The parameter `big` is `DBL_MAX`.
-/

namespace Gslib.El
open Gslib.Lin

variable {K : Type} [Field K] [LinearOrder K]

/-- `a/b` -/
def divE (a b : K) : Option K := if b = 0 then none else some (a / b)

/-- an array index in `{0,1}` -/
def dim2 (u : U32) : Option (Fin 2) := if h : u.toNat < 2 then some ⟨u.toNat, h⟩ else none

/-- the shift `2*d` -/
def sh2 (d : Fin 2) : Nat := 2 * d.val

/-- `flags>>(2*d) & 3u` -/
def conAt (flags : U32) (d : Fin 2) : U32 := (flags >>> sh2 d) &&& 3

/-- findpts_el_2.c:283-340 `reject_prior_step_q`: `inl out` when the step is accepted (`out` with `x`, `oldr`, `index`, `dist2`, `tr` set and the remaining fields those of `p`),
`inr out` when it is rejected -/
def rejectPrior2 (big tol : K) (resid : Fin 2 → K) (p : Pt K 2) : Option (Pt K 2 ⊕ Pt K 2) :=
  let dist2 := resid 0 * resid 0 + resid 1 * resid 1
  let out : Pt K 2 := { p with oldr := some p.r, dist2 := dist2 }
  if 1 / 100 * p.dist2p ≤ p.dist2 - dist2 then some (.inl { out with tr := if 9 / 10 * p.dist2p ≤ p.dist2 - dist2 then p.tr * 2 else p.tr })
  else p.oldr.map fun o => .inr { out with
    tr := (if |p.r 1 - o 1| < |p.r 0 - o 0| then |p.r 0 - o 0| else |p.r 1 - o 1|) / 4
    dist2 := p.dist2
    r := o
    flags := (p.flags >>> 5) ||| (if p.dist2p < dist2 * tol then (16 : U32) else 0)
    dist2p := -big }

/-- findpts_el_2.c:368: the lower bound of coordinate `d`, and whether it is that of the element -/
def bndLo (tr r0 : K) : K × Bool := if -1 < r0 - tr then (r0 - tr, false) else (-1, true)

/-- findpts_el_2.c:369: the upper bound -/
def bndHi (tr r0 : K) : K × Bool := if r0 + tr < 1 then (r0 + tr, false) else (1, true)

/-- the box of a step: `bnd` and `mask` -/
structure Box2 (K : Type) where
  lo : Fin 2 → K
  hi : Fin 2 → K
  mask : U32

/-- findpts_el_2.c:349, 366-370 -/
def areaBox (tr : K) (r0 : Fin 2 → K) : Box2 K where
  lo d := (bndLo tr (r0 d)).1
  hi d := (bndHi tr (r0 d)).1
  mask := ((((0xf : U32) ^^^ (if (bndLo tr (r0 0)).2 then (0 : U32) else (1 : U32) <<< 0)) ^^^ (if (bndHi tr (r0 0)).2 then (0 : U32) else (2 : U32) <<< 0)) ^^^ (if (bndLo tr (r0 1)).2 then (0 : U32) else (1 : U32) <<< 2)) ^^^
    (if (bndHi tr (r0 1)).2 then (0 : U32) else (2 : U32) <<< 2)

/-- findpts_el_2.c:382-388, 423-429: a move by `d` from `z` that ends at `nr`, outside of `[lo,hi]` in direction `e`, is cut to the fraction at which the bound is met: the new (`fac`, `flags`) -/
def cutTo (lo hi z nr dr : K) (e : Fin 2) (s : K × U32) : Option (K × U32) :=
  if nr < lo then (divE (lo - z) dr).map fun f => if f < s.1 then (f, (1 : U32) <<< sh2 e) else s
  else (divE (hi - z) dr).map fun f => if f < s.1 then (f, (2 : U32) <<< sh2 e) else s

/-- findpts_el_2.c:379-389: one round of the loop over `d` -/
def areaHit1 (b : Box2 K) (r0 dr : Fin 2 → K) (d : Fin 2) (s : K × U32) : Option (K × U32) :=
  if 0 ≤ (r0 d + dr d - b.lo d) * (b.hi d - (r0 d + dr d)) then some s else cutTo (b.lo d) (b.hi d) (r0 d) (r0 d + dr d) (dr d) d s

/-- findpts_el_2.c:378-389: (`fac`, `flags`) of the first bound met on the way to `r0+dr` -/
def areaHit (b : Box2 K) (r0 dr : Fin 2 → K) : Option (K × U32) := (areaHit1 b r0 dr 0 (1, 0)).bind (areaHit1 b r0 dr 1)

/-- `resid - jac*dr`, findpts_el_2.c:402-403, 444-445, 490-491 -/
def resAt (jac : Fin 4 → K) (resid dr : Fin 2 → K) : Fin 2 → K := ![resid 0 - (jac 0 * dr 0 + jac 1 * dr 1), resid 1 - (jac 2 * dr 0 + jac 3 * dr 1)]

/-- `jac[de]` -/
def col0 (de : Fin 2) : Fin 4 := ⟨de.val, by omega⟩
/-- `jac[2+de]` -/
def col1 (de : Fin 2) : Fin 4 := ⟨2 + de.val, by omega⟩

/-- findpts_el_2.c:405, 447-448 `y = J_u^T res` -/
def yAt (jac : Fin 4 → K) (res : Fin 2 → K) (de : Fin 2) : K := jac (col0 de) * res 0 + jac (col1 de) * res 1

/-- findpts_el_2.c:407-408 `JtJ = J_u^T J_u` -/
def jtj (jac : Fin 4 → K) (de : Fin 2) : K := jac (col0 de) * jac (col0 de) + jac (col1 de) * jac (col1 de)

/-- findpts_el_2.c:410-411, 419-431: the fraction of `drc` that can be done in direction `de` and the constraint met -/
def edgeHit (b : Box2 K) (r0 dr : Fin 2 → K) (de : Fin 2) (drc : K) : Option (K × U32) :=
  if (r0 de + (dr de + drc) - b.lo de) * (b.hi de - (r0 de + (dr de + drc))) < 0 then cutTo (b.lo de) (b.hi de) (r0 de + dr de) (r0 de + (dr de + drc)) drc de (1, 0) else some (1, 0)

/-- findpts_el_2.c:435 -/
def addAt (dr : Fin 2 → K) (de : Fin 2) (v : K) : Fin 2 → K := fun d => if d = de then dr d + v else dr d

/-- findpts_el_2.c:399-438 `newton_area_edge` -/
def areaEdge (b : Box2 K) (jac : Fin 4 → K) (resid r0 : Fin 2 → K) (s : (Fin 2 → K) × U32) : Option ((Fin 2 → K) × U32) :=
  (dim2 (plus1mod2 (edgeIndex2 s.2 >>> 1))).bind fun de =>
  (divE (yAt jac (resAt jac resid s.1) de) (jtj jac de)).bind fun drc =>
  (edgeHit b r0 s.1 de drc).map fun h => (addAt s.1 de (h.1 * drc), s.2 ||| h.2)

/-- findpts_el_2.c:449-453 `SETDR` -/
def setDr (b : Box2 K) (r0 : Fin 2 → K) (s : (Fin 2 → K) × U32) (d : Fin 2) : K :=
  if conAt s.2 d = 0 then s.1 d else (if conAt s.2 d = 1 then b.lo d else b.hi d) - r0 d

/-- findpts_el_2.c:456-458: release constraint `d` -/
def release (dr y : Fin 2 → K) (d : Fin 2) (flags : U32) : U32 := if conAt flags d = 0 then flags else if dr d * y d < 0 then flags &&& ~~~((3 : U32) <<< sh2 d) else flags

/-- findpts_el_2.c:441-463: the new (`dr`, `flags`) -/
def areaRelax (b : Box2 K) (jac : Fin 4 → K) (resid r0 : Fin 2 → K) (s : (Fin 2 → K) × U32) : (Fin 2 → K) × U32 :=
  (setDr b r0 s, release (setDr b r0 s) (yAt jac (resAt jac resid s.1)) 1 (release (setDr b r0 s) (yAt jac (resAt jac resid s.1)) 0 s.2))

/-- findpts_el_2.c:399-475: `newton_area_edge` and `newton_area_relax` until `newton_area_fin`; `none` when they are passed more than `fuel` times -/
def areaLoop (b : Box2 K) (jac : Fin 4 → K) (resid r0 : Fin 2 → K) : Nat → (Fin 2 → K) × U32 → Option ((Fin 2 → K) × U32)
  | 0, _ => none
  | fuel + 1, s => (areaEdge b jac resid r0 s).bind fun s1 =>
    if (areaRelax b jac resid r0 s1).2 = s1.2 then some (areaRelax b jac resid r0 s1)
    else if numConstrained2 (areaRelax b jac resid r0 s1).2 = 1 then areaLoop b jac resid r0 fuel (areaRelax b jac resid r0 s1) else some (areaRelax b jac resid r0 s1)

/-- findpts_el_2.c:372-475: (`dr`, `flags`) at `newton_area_fin` -/
def areaSolve (fuel : Nat) (b : Box2 K) (jac : Fin 4 → K) (resid r0 : Fin 2 → K) : Option ((Fin 2 → K) × U32) :=
  if jac 0 * jac 3 - jac 1 * jac 2 = 0 then none else
  (areaHit b r0 (linSolve2 jac resid)).bind fun h =>
  if h.2 = 0 then some (linSolve2 jac resid, 0) else areaLoop b jac resid r0 fuel (fun d => linSolve2 jac resid d * h.1, h.2)

/-- findpts_el_2.c:495-499 `SETR` -/
def setR (r0 dr : Fin 2 → K) (flags : U32) (d : Fin 2) : K := if conAt flags d = 0 then r0 d + dr d else if conAt flags d = 1 then -1 else 1

/-- sum of squares -/
def sq2 (v : Fin 2 → K) : K := v 0 * v 0 + v 1 * v 1

/-- findpts_el_2.c:487-501 -/
def areaFin (tol : K) (b : Box2 K) (jac : Fin 4 → K) (resid : Fin 2 → K) (p out : Pt K 2) (s : (Fin 2 → K) × U32) : Pt K 2 :=
  let flags := (s.2 &&& b.mask) ||| (if |s.1 0| + |s.1 1| < tol then (16 : U32) else 0)
  { out with
    dist2p := sq2 resid - sq2 (resAt jac resid s.1)
    r := setR p.r s.1 flags
    flags := flags ||| (p.flags <<< 5) }

/-- findpts_el_2.c:344-502 `newton_area`; `out` is the point prepared by `reject_prior_step_q` -/
def newtonArea (fuel : Nat) (tol : K) (jac : Fin 4 → K) (resid : Fin 2 → K) (p out : Pt K 2) : Option (Pt K 2) :=
  (areaSolve fuel (areaBox p.tr p.r) jac resid p.r).map (areaFin tol (areaBox p.tr p.r) jac resid p out)

/-- a candidate of newton_edge: (`nr`, `dr`, `new_flags`) -/
structure Cand (K : Type) where
  nr : K
  dr : K
  flags : U32

/-- findpts_el_2.c:529 `EVAL` -/
def evalQ (A y dr : K) : K := (dr * A - 2 * y) * dr

/-- findpts_el_2.c:537-538 -/
def candLo (tr oldr : K) (flags : U32) (de : Fin 2) : Cand K := if -1 < oldr - tr then ⟨oldr - tr, -tr, 0⟩ else ⟨-1, -1 - oldr, flags ||| ((1 : U32) <<< sh2 de)⟩

/-- findpts_el_2.c:541-542 -/
def candHi (tr oldr : K) (flags : U32) (de : Fin 2) : Cand K := if oldr + tr < 1 then ⟨oldr + tr, tr, 0⟩ else ⟨1, 1 - oldr, flags ||| ((2 : U32) <<< sh2 de)⟩

/-- findpts_el_2.c:532-545: the chosen candidate -/
def edgeChoice (A y tr oldr : K) (flags : U32) (de : Fin 2) : Cand K :=
  if 0 < A ∧ |y / A| < tr ∧ |oldr + y / A| < 1 then ⟨oldr + y / A, y / A, 0⟩
  else if evalQ A y (candHi tr oldr flags de).dr < evalQ A y (candLo tr oldr flags de).dr then candHi tr oldr flags de else candLo tr oldr flags de

/-- findpts_el_2.c:504-557 `newton_edge` -/
def newtonEdge (tol : K) (jac : Fin 4 → K) (rhes : K) (resid : Fin 2 → K) (de dn : Fin 2) (flags : U32) (p out : Pt K 2) : Pt K 2 :=
  let c := edgeChoice (jtj jac de - rhes) (yAt jac resid de) p.tr (p.r de) flags de
  { out with
    r := fun d => if d = de then c.nr else if d = dn then p.r dn else out.r d
    dist2p := -(evalQ (jtj jac de - rhes) (yAt jac resid de) c.dr)
    flags := flags ||| (c.flags ||| (if |c.dr| < tol then (16 : U32) else 0)) ||| (p.flags <<< 5) }

/-- findpts_el_2.c:591-594: what `findpt_area` does with a point, given the residual and the Jacobian there; `fuel` bounds the passes through `newton_area_edge` -/
def areaPoint (fuel : Nat) (big tol : K) (resid : Fin 2 → K) (jac : Fin 4 → K) (p : Pt K 2) : Option (Pt K 2) :=
  (rejectPrior2 big tol resid p).bind fun
    | .inr out => some out
    | .inl out => newtonArea fuel tol jac resid p out

/-- findpts_el_2.c:639-660: what `findpt_edge` does with a point, given the residual, the Jacobian and `hes` there -/
def edgePoint (fuel : Nat) (big tol : K) (resid : Fin 2 → K) (jac : Fin 4 → K) (hes : K) (de dn : Fin 2) (pflag : U32) (p : Pt K 2) : Option (Pt K 2) :=
  (rejectPrior2 big tol resid p).bind fun
    | .inr out => some out
    | .inl out => if (resid 0 * jac (col0 dn) + resid 1 * jac (col1 dn)) * p.r dn < 0 then newtonArea fuel tol jac resid p out
      else some (newtonEdge tol jac hes resid de dn pflag p out)

/-- findpts_el_2.c:678-708: what `findpt_pt` does with a point, given position, Jacobian and second derivatives at the corner -/
def ptPoint (fuel : Nat) (big tol : K) (x : Fin 2 → K) (jac hes : Fin 4 → K) (pflag : U32) (p : Pt K 2) : Option (Pt K 2) :=
  let resid : Fin 2 → K := ![p.x 0 - x 0, p.x 1 - x 1]
  let sr0 := (jac 0 * resid 0 + jac 2 * resid 1) * p.r 0
  let sr1 := (jac 1 * resid 0 + jac 3 * resid 1) * p.r 1
  (rejectPrior2 big tol resid p).bind fun
    | .inr out => some out
    | .inl out =>
      if sr0 < 0 then
        if sr1 < 0 then newtonArea fuel tol jac resid p out
        else some (newtonEdge tol jac (resid 0 * hes (col0 0) + resid 1 * hes (col1 0)) resid 0 1 (pflag &&& ((3 : U32) <<< sh2 1)) p out)
      else if sr1 < 0 then some (newtonEdge tol jac (resid 0 * hes (col0 1) + resid 1 * hes (col1 1)) resid 1 0 (pflag &&& ((3 : U32) <<< sh2 0)) p out)
      else some { out with r := p.r, dist2p := 0, flags := pflag ||| 16 }

end Gslib.El
