import Verif.Model.Newton2

/-!
# One step of the point search in 3D (findpts_el_3.c:467-913, 949-954, 999-1030, 1065-1112, 1131-1181)

`double` is replaced by an ordered field `K` (exact arithmetic); a division by zero has no result (`none`), nor does a read of uninitialised data. The array `jac[9]` is a function of row and column: `J d j` is `jac[3*d+j]`.
The parameter `big` is `DBL_MAX`.
-/

namespace Gslib.El
open Gslib.Lin

variable {K : Type} [Field K] [LinearOrder K]

/-- an array index in `{0,1,2}` -/
def dim3 (u : U32) : Option (Fin 3) := if h : u.toNat < 3 then some ⟨u.toNat, h⟩ else none

/-- the shift `2*d` -/
def sh3 (d : Fin 3) : Nat := 2 * d.val

/-- `flags>>(2*d) & 3u` -/
def conAt3 (flags : U32) (d : Fin 3) : U32 := (flags >>> sh3 d) &&& 3

/-- findpts_el_3.c:472-530 `reject_prior_step_q`: `inl out` when the step is accepted (`out` with `x`, `oldr`, `index`, `dist2`, `tr` set and the remaining fields those of `p`), `inr out` when it is rejected -/
def rejectPrior3 (big tol : K) (resid : Fin 3 → K) (p : Pt K 3) : Option (Pt K 3 ⊕ Pt K 3) :=
  let dist2 := resid 0 * resid 0 + resid 1 * resid 1 + resid 2 * resid 2
  let out : Pt K 3 := { p with oldr := some p.r, dist2 := dist2 }
  if 1 / 100 * p.dist2p ≤ p.dist2 - dist2 then some (.inl { out with tr := if 9 / 10 * p.dist2p ≤ p.dist2 - dist2 then p.tr * 2 else p.tr })
  else p.oldr.map fun o => .inr { out with
    tr := (if |p.r 2 - o 2| < |p.r 1 - o 1| then (if |p.r 1 - o 1| < |p.r 0 - o 0| then |p.r 0 - o 0| else |p.r 1 - o 1|)
      else (if |p.r 2 - o 2| < |p.r 0 - o 0| then |p.r 0 - o 0| else |p.r 2 - o 2|)) / 4
    dist2 := p.dist2
    r := o
    flags := (p.flags >>> 7) ||| (if p.dist2p < dist2 * tol then (64 : U32) else 0)
    dist2p := -big }

/-- the box of a step: `bnd` and `mask` -/
structure Box3 (K : Type) where
  lo : Fin 3 → K
  hi : Fin 3 → K
  mask : U32

/-- findpts_el_3.c:557-558: the effect on `mask` for coordinate `d` -/
def maskAt (tr : K) (r0 : Fin 3 → K) (d : Fin 3) (m : U32) : U32 :=
  (m ^^^ (if (bndLo tr (r0 d)).2 then (0 : U32) else (1 : U32) <<< sh3 d)) ^^^ (if (bndHi tr (r0 d)).2 then (0 : U32) else (2 : U32) <<< sh3 d)

/-- findpts_el_3.c:555-559 -/
def volBox (tr : K) (r0 : Fin 3 → K) : Box3 K where
  lo d := (bndLo tr (r0 d)).1
  hi d := (bndHi tr (r0 d)).1
  mask := maskAt tr r0 2 (maskAt tr r0 1 (maskAt tr r0 0 0x3f))

/-- findpts_el_3.c:572-578, 624-630: a move by `dr` from `z` that ends at `nr`, outside of `[lo,hi]` in direction `e`, is cut to the fraction at which the bound is met: the new (`fac`, `flags`) -/
def cutTo3 (lo hi z nr dr : K) (e : Fin 3) (s : K × U32) : Option (K × U32) :=
  if nr < lo then (divE (lo - z) dr).map fun f => if f < s.1 then (f, (1 : U32) <<< sh3 e) else s
  else (divE (hi - z) dr).map fun f => if f < s.1 then (f, (2 : U32) <<< sh3 e) else s

/-- findpts_el_3.c:569-579: one round of the loop over `d` -/
def volHit1 (b : Box3 K) (r0 dr : Fin 3 → K) (d : Fin 3) (s : K × U32) : Option (K × U32) :=
  if 0 ≤ (r0 d + dr d - b.lo d) * (b.hi d - (r0 d + dr d)) then some s else cutTo3 (b.lo d) (b.hi d) (r0 d) (r0 d + dr d) (dr d) d s

/-- findpts_el_3.c:568-579: (`fac`, `flags`) of the first bound met on the way to `r0+dr` -/
def volHit (b : Box3 K) (r0 dr : Fin 3 → K) : Option (K × U32) := (volHit1 b r0 dr 0 (1, 0)).bind fun s => (volHit1 b r0 dr 1 s).bind (volHit1 b r0 dr 2)

/-- `resid - jac*dr`, findpts_el_3.c:595-597, 648-650, 680-682, 730-732 -/
def resAt3 (J : Fin 3 → Fin 3 → K) (resid dr : Fin 3 → K) : Fin 3 → K := fun d => resid d - (J d 0 * dr 0 + J d 1 * dr 1 + J d 2 * dr 2)

/-- findpts_el_3.c:599-600, 652, 684-686 `y = J_u^T res` -/
def yAt3 (J : Fin 3 → Fin 3 → K) (res : Fin 3 → K) (j : Fin 3) : K := J 0 j * res 0 + J 1 j * res 1 + J 2 j * res 2

/-- findpts_el_3.c:602-610, 654-656: an entry of `J_u^T J_u` -/
def gram (J : Fin 3 → Fin 3 → K) (i j : Fin 3) : K := J 0 i * J 0 j + J 1 i * J 1 j + J 2 i * J 2 j

/-- the array `jac[9]` -/
def flat9 (J : Fin 3 → Fin 3 → K) : Fin 9 → K := ![J 0 0, J 0 1, J 0 2, J 1 0, J 1 1, J 1 2, J 2 0, J 2 1, J 2 2]

/-- findpts_el_3.c:32-35: what `lin_solve_3` divides by -/
def det9 (A : Fin 9 → K) : K := A 0 * (A 4 * A 8 - A 5 * A 7) + A 1 * (A 5 * A 6 - A 3 * A 8) + A 2 * (A 3 * A 7 - A 4 * A 6)

/-- findpts_el_3.c:620-632 `CHECK_CONSTRAINT` -/
def checkCon (b : Box3 K) (r0 dr : Fin 3 → K) (delta : K) (d : Fin 3) (s : K × U32) : Option (K × U32) :=
  if (r0 d + (dr d + delta) - b.lo d) * (b.hi d - (r0 d + (dr d + delta))) < 0 then cutTo3 (b.lo d) (b.hi d) (r0 d + dr d) (r0 d + (dr d + delta)) delta d s else some s

/-- `dr[d] += v` -/
def addAt3 (dr : Fin 3 → K) (e : Fin 3) (v : K) : Fin 3 → K := fun d => if d = e then dr d + v else dr d

/-- findpts_el_3.c:589-640 `newton_vol_face`: the new (`dr`, `flags`), and whether it ends with `goto newton_vol_fin` -/
def volFace (b : Box3 K) (J : Fin 3 → Fin 3 → K) (resid r0 : Fin 3 → K) (s : (Fin 3 → K) × U32) : Option (((Fin 3 → K) × U32) × Bool) :=
  (dim3 (plus1mod3 (faceIndex3 s.2 >>> 1))).bind fun d1 => (dim3 (plus2mod3 (faceIndex3 s.2 >>> 1))).bind fun d2 =>
  if gram J d1 d1 * gram J d2 d2 - gram J d1 d2 * gram J d1 d2 = 0 then none else
  let drc := linSolveSym2 ![gram J d1 d1, gram J d1 d2, gram J d2 d2] ![yAt3 J (resAt3 J resid s.1) d1, yAt3 J (resAt3 J resid s.1) d2]
  (checkCon b r0 s.1 (drc 0) d1 (1, 0)).bind fun h => (checkCon b r0 s.1 (drc 1) d2 h).map fun h =>
  ((addAt3 (addAt3 s.1 d1 (h.1 * drc 0)) d2 (h.1 * drc 1), s.2 ||| h.2), decide (h.2 = 0))

/-- findpts_el_3.c:642-673 `newton_vol_edge` -/
def volEdge (b : Box3 K) (J : Fin 3 → Fin 3 → K) (resid r0 : Fin 3 → K) (s : (Fin 3 → K) × U32) : Option ((Fin 3 → K) × U32) :=
  (dim3 (edgeIndex3 s.2 >>> 2)).bind fun de =>
  (divE (yAt3 J (resAt3 J resid s.1) de) (gram J de de)).bind fun drc =>
  (checkCon b r0 s.1 drc de (1, 0)).map fun h => (addAt3 s.1 de (h.1 * drc), s.2 ||| h.2)

/-- findpts_el_3.c:687-691 `SETDR` -/
def setDr3 (b : Box3 K) (r0 : Fin 3 → K) (s : (Fin 3 → K) × U32) (d : Fin 3) : K :=
  if conAt3 s.2 d = 0 then s.1 d else (if conAt3 s.2 d = 1 then b.lo d else b.hi d) - r0 d

/-- findpts_el_3.c:693-696: release constraint `d` -/
def release3 (dr y : Fin 3 → K) (d : Fin 3) (flags : U32) : U32 := if conAt3 flags d = 0 then flags else if dr d * y d < 0 then flags &&& ~~~((3 : U32) <<< sh3 d) else flags

/-- findpts_el_3.c:676-701: the new (`dr`, `flags`) -/
def volRelax (b : Box3 K) (J : Fin 3 → Fin 3 → K) (resid r0 : Fin 3 → K) (s : (Fin 3 → K) × U32) : (Fin 3 → K) × U32 :=
  let dr := setDr3 b r0 s
  let y := yAt3 J (resAt3 J resid s.1)
  (dr, release3 dr y 2 (release3 dr y 1 (release3 dr y 0 s.2)))

/-- findpts_el_3.c:642-714: `newton_vol_edge` and `newton_vol_relax`; `k` is what follows the `switch`, and `newton_vol_fin` follows when the constraints are unchanged -/
def volTail (b : Box3 K) (J : Fin 3 → Fin 3 → K) (resid r0 : Fin 3 → K) (k : (Fin 3 → K) × U32 → Option ((Fin 3 → K) × U32)) (s : (Fin 3 → K) × U32) : Option ((Fin 3 → K) × U32) :=
  (volEdge b J resid r0 s).bind fun s1 => if (volRelax b J resid r0 s1).2 = s1.2 then some (volRelax b J resid r0 s1) else k (volRelax b J resid r0 s1)

/-- findpts_el_3.c:589-714: from the `switch` on the number of constraints (line 720; the first time, there is one) until `newton_vol_fin`; `none` when the `switch` is passed more than `fuel` times -/
def volLoop (b : Box3 K) (J : Fin 3 → Fin 3 → K) (resid r0 : Fin 3 → K) : Nat → (Fin 3 → K) × U32 → Option ((Fin 3 → K) × U32)
  | 0, _ => none
  | fuel + 1, s =>
    if numConstrained3 s.2 = 1 then (volFace b J resid r0 s).bind fun t => if t.2 then some t.1 else volTail b J resid r0 (volLoop b J resid r0 fuel) t.1
    else if numConstrained3 s.2 = 2 then volTail b J resid r0 (volLoop b J resid r0 fuel) s
    else some s

/-- findpts_el_3.c:561-714: (`dr`, `flags`) at `newton_vol_fin` -/
def volSolve (fuel : Nat) (b : Box3 K) (J : Fin 3 → Fin 3 → K) (resid r0 : Fin 3 → K) : Option ((Fin 3 → K) × U32) :=
  if det9 (flat9 J) = 0 then none else
  (volHit b r0 (linSolve3 (flat9 J) resid)).bind fun h =>
  if h.2 = 0 then some (linSolve3 (flat9 J) resid, 0) else volLoop b J resid r0 fuel (fun d => linSolve3 (flat9 J) resid d * h.1, h.2)

/-- findpts_el_3.c:736-739 `SETR` -/
def setR3 (r0 dr : Fin 3 → K) (flags : U32) (d : Fin 3) : K := if conAt3 flags d = 0 then r0 d + dr d else if conAt3 flags d = 1 then -1 else 1

/-- sum of squares -/
def sq3 (v : Fin 3 → K) : K := v 0 * v 0 + v 1 * v 1 + v 2 * v 2

/-- findpts_el_3.c:727-742 -/
def volFin (tol : K) (b : Box3 K) (J : Fin 3 → Fin 3 → K) (resid : Fin 3 → K) (p out : Pt K 3) (s : (Fin 3 → K) × U32) : Pt K 3 :=
  let flags := (s.2 &&& b.mask) ||| (if |s.1 0| + |s.1 1| + |s.1 2| < tol then (64 : U32) else 0)
  { out with
    dist2p := sq3 resid - sq3 (resAt3 J resid s.1)
    r := setR3 p.r s.1 flags
    flags := flags ||| (p.flags <<< 7) }

/-- findpts_el_3.c:534-743 `newton_vol`; `out` is the point prepared by `reject_prior_step_q` -/
def newtonVol (fuel : Nat) (tol : K) (J : Fin 3 → Fin 3 → K) (resid : Fin 3 → K) (p out : Pt K 3) : Option (Pt K 3) :=
  (volSolve fuel (volBox p.tr p.r) J resid p.r).map (volFin tol (volBox p.tr p.r) J resid p out)

/-- findpts_el_3.c:804 `EVAL`; `A` holds the entries 00, 01, 11 -/
def evalF (A : Fin 3 → K) (y : Fin 2 → K) (r s : K) : K := -(y 0 * r + y 1 * s) + (r * A 0 * r + (2 * r * A 1 + s * A 2) * s) / 2

/-- findpts_el_3.c:787-790: the lower bound of a move, and whether it is that of the element -/
def relLo (tr r0 : K) : K × Bool := if -1 < r0 - tr then (-tr, false) else (-1 - r0, true)

/-- findpts_el_3.c:787-790: the upper bound -/
def relHi (tr r0 : K) : K × Bool := if r0 + tr < 1 then (tr, false) else (1 - r0, true)

/-- the locals `v`, `i` and `dr` of `newton_face` -/
structure FaceSt (K : Type) where
  v : K
  i : U32
  dr : Fin 2 → K

/-- findpts_el_3.c:813-815: another corner (`c0`,`c1`) -/
def faceCorner (A : Fin 3 → K) (y : Fin 2 → K) (c0 c1 : K) (i : U32) (s : FaceSt K) : FaceSt K := if evalF A y c0 c1 < s.v then { s with v := evalF A y c0 c1, i := i } else s

/-- findpts_el_3.c:818-823: the stationary point of the side where the second coordinate is `c`; the first one is in `[l,h]` -/
def faceSide0 (A : Fin 3 → K) (y : Fin 2 → K) (l h c : K) (i : U32) (s : FaceSt K) : FaceSt K :=
  let drc := (y 0 - A 1 * c) / A 0
  if 0 ≤ (drc - l) * (h - drc) ∧ evalF A y drc c < s.v then ⟨evalF A y drc c, i, ![drc, s.dr 1]⟩ else s

/-- findpts_el_3.c:827-832: the stationary point of the side where the first coordinate is `c` -/
def faceSide1 (A : Fin 3 → K) (y : Fin 2 → K) (l h c : K) (i : U32) (s : FaceSt K) : FaceSt K :=
  let drc := (y 1 - A 1 * c) / A 2
  if 0 ≤ (drc - l) * (h - drc) ∧ evalF A y c drc < s.v then ⟨evalF A y c drc, i, ![s.dr 0, drc]⟩ else s

/-- findpts_el_3.c:811-833 `newton_face_constrained` in the box `[l 0,h 0] x [l 1,h 1]`; `dr` is what it is at the label -/
def faceConstrained (A : Fin 3 → K) (y l h dr : Fin 2 → K) : FaceSt K :=
  let s := faceCorner A y (h 0) (h 1) 10 (faceCorner A y (l 0) (h 1) 9 (faceCorner A y (h 0) (l 1) 6 ⟨evalF A y (l 0) (l 1), 5, dr⟩))
  let s := if 0 < A 0 then faceSide0 A y (l 0) (h 0) (h 1) 8 (faceSide0 A y (l 0) (h 0) (l 1) 4 s) else s
  if 0 < A 2 then faceSide1 A y (l 1) (h 1) (h 0) 2 (faceSide1 A y (l 1) (h 1) (l 0) 1 s) else s

/-- findpts_el_3.c:836-844 `SETR`: (`r[d]`, `new_flags`); `f` is `i>>(2*d) & 3u`, `real` tells whether the bounds are those of the element -/
def faceSetR (tr r0 dr : K) (f : U32) (real : Bool × Bool) (d3 : Fin 3) (nf : U32) : K × U32 :=
  if f = 0 then (r0 + dr, nf)
  else if f &&& ((if real.1 then (1 : U32) else 0) ||| (if real.2 then (2 : U32) else 0)) = 0 then (r0 + (if f = 1 then -tr else tr), nf)
  else (if f = 1 then -1 else 1, nf ||| (f <<< sh3 d3))

/-- findpts_el_3.c:848-854 -/
def faceFin (tol v : K) (r : Fin 2 → K) (nf : U32) (d1 d2 dn : Fin 3) (p out : Pt K 3) : Pt K 3 :=
  { out with
    dist2p := -2 * v
    r := fun d => if d = d2 then r 1 else if d = d1 then r 0 else if d = dn then p.r dn else out.r d
    flags := (nf ||| (if |r 0 - p.r d1| + |r 1 - p.r d2| < tol then (64 : U32) else 0)) ||| (p.flags <<< 7) }

/-- findpts_el_3.c:745-855 `newton_face`; the bits of `mask` for a coordinate are the two booleans of `relLo` and `relHi` -/
def newtonFace (tol : K) (J : Fin 3 → Fin 3 → K) (rhes resid : Fin 3 → K) (d1 d2 dn : Fin 3) (flags : U32) (p out : Pt K 3) : Pt K 3 :=
  let A : Fin 3 → K := ![gram J d1 d1 - rhes 0, gram J d1 d2 - rhes 1, gram J d2 d2 - rhes 2]
  let y : Fin 2 → K := ![yAt3 J resid d1, yAt3 J resid d2]
  let r0 : Fin 2 → K := ![p.r d1, p.r d2]
  let l : Fin 2 → K := fun d => (relLo p.tr (r0 d)).1
  let h : Fin 2 → K := fun d => (relHi p.tr (r0 d)).1
  let indef : Prop := A 0 + A 2 ≤ 0 ∨ A 0 * A 2 ≤ A 1 * A 1
  let dr : Fin 2 → K := if indef then 0 else linSolveSym2 A y
  if ¬indef ∧ 0 ≤ (dr 0 - l 0) * (h 0 - dr 0) ∧ 0 ≤ (dr 1 - l 1) * (h 1 - dr 1) then faceFin tol (evalF A y (dr 0) (dr 1)) (fun d => r0 d + dr d) flags d1 d2 dn p out
  else
    let s := faceConstrained A y l h dr
    let a := faceSetR p.tr (r0 0) (s.dr 0) (s.i &&& 3) ((relLo p.tr (r0 0)).2, (relHi p.tr (r0 0)).2) d1 flags
    let b := faceSetR p.tr (r0 1) (s.dr 1) (s.i >>> 2 &&& 3) ((relLo p.tr (r0 1)).2, (relHi p.tr (r0 1)).2) d2 a.2
    faceFin tol s.v ![a.1, b.1] b.2 d1 d2 dn p out

/-- findpts_el_3.c:892-894 -/
def candLo3 (tr oldr : K) (flags : U32) (de : Fin 3) : Cand K := if -1 < oldr - tr then ⟨oldr - tr, -tr, 0⟩ else ⟨-1, -1 - oldr, flags ||| ((1 : U32) <<< sh3 de)⟩

/-- findpts_el_3.c:896-898 -/
def candHi3 (tr oldr : K) (flags : U32) (de : Fin 3) : Cand K := if oldr + tr < 1 then ⟨oldr + tr, tr, 0⟩ else ⟨1, 1 - oldr, flags ||| ((2 : U32) <<< sh3 de)⟩

/-- findpts_el_3.c:887-900: the chosen candidate -/
def edgeChoice3 (A y tr oldr : K) (flags : U32) (de : Fin 3) : Cand K :=
  if 0 < A ∧ |y / A| < tr ∧ |oldr + y / A| < 1 then ⟨oldr + y / A, y / A, 0⟩
  else if evalQ A y (candHi3 tr oldr flags de).dr < evalQ A y (candLo3 tr oldr flags de).dr then candHi3 tr oldr flags de else candLo3 tr oldr flags de

/-- findpts_el_3.c:857-913 `newton_edge` -/
def newtonEdge3 (tol : K) (J : Fin 3 → Fin 3 → K) (rhes : K) (resid : Fin 3 → K) (de dn1 dn2 : Fin 3) (flags : U32) (p out : Pt K 3) : Pt K 3 :=
  let c := edgeChoice3 (gram J de de - rhes) (yAt3 J resid de) p.tr (p.r de) flags de
  { out with
    r := fun d => if d = dn2 then p.r dn2 else if d = dn1 then p.r dn1 else if d = de then c.nr else out.r d
    dist2p := -(evalQ (gram J de de - rhes) (yAt3 J resid de) c.dr)
    flags := flags ||| (c.flags ||| (if |c.dr| < tol then (64 : U32) else 0)) ||| (p.flags <<< 7) }

/-- findpts_el_3.c:949-954: what `findpt_vol` does with a point, given the residual and the Jacobian there; `fuel` bounds the passes through the `switch` of `newton_vol` -/
def volPoint (fuel : Nat) (big tol : K) (resid : Fin 3 → K) (J : Fin 3 → Fin 3 → K) (p : Pt K 3) : Option (Pt K 3) :=
  (rejectPrior3 big tol resid p).bind fun
    | .inr out => some out
    | .inl out => newtonVol fuel tol J resid p out

/-- findpts_el_3.c:1006-1030: what `findpt_face` does with a point, given the residual, the Jacobian and `hes` there -/
def facePoint (fuel : Nat) (big tol : K) (resid : Fin 3 → K) (J : Fin 3 → Fin 3 → K) (hes : Fin 3 → K) (dn d1 d2 : Fin 3) (pflag : U32) (p : Pt K 3) : Option (Pt K 3) :=
  (rejectPrior3 big tol resid p).bind fun
    | .inr out => some out
    | .inl out => if (resid 0 * J 0 dn + resid 1 * J 1 dn + resid 2 * J 2 dn) * p.r dn < 0 then newtonVol fuel tol J resid p out
      else some (newtonFace tol J hes resid d1 d2 dn pflag p out)

/-- findpts_el_3.c:1075-1111: what `findpt_edge` does with a point, given the residual, the Jacobian and `hes` there -/
def edgePoint3 (fuel : Nat) (big tol : K) (resid : Fin 3 → K) (J : Fin 3 → Fin 3 → K) (hes : Fin 5 → K) (de dn1 dn2 : Fin 3) (pflag : U32) (p : Pt K 3) : Option (Pt K 3) :=
  (rejectPrior3 big tol resid p).bind fun
    | .inr out => some out
    | .inl out =>
      if yAt3 J resid dn1 * p.r dn1 < 0 then
        if yAt3 J resid dn2 * p.r dn2 < 0 then newtonVol fuel tol J resid p out
        else some (newtonFace tol J ![hes 0, hes 1, hes 3] resid de dn1 dn2 (pflag &&& ((3 : U32) <<< sh3 dn2)) p out)
      else if yAt3 J resid dn2 * p.r dn2 < 0 then some (newtonFace tol J ![hes 4, hes 2, hes 0] resid dn2 de dn1 (pflag &&& ((3 : U32) <<< sh3 dn1)) p out)
      else some (newtonEdge3 tol J (hes 0) resid de dn1 dn2 pflag p out)

/-- findpts_el_3.c:1170-1172, 1177-1178: a second derivative, contracted with the residual; `H d k` is `hes[6*d+k]` -/
def rhAt (H : Fin 3 → Fin 6 → K) (resid : Fin 3 → K) (k : Fin 6) : K := resid 0 * H 0 k + resid 1 * H 1 k + resid 2 * H 2 k

/-- findpts_el_3.c:1131-1181: what `findpt_pt` does with a point, given position, Jacobian and second derivatives at the corner -/
def ptPoint3 (fuel : Nat) (big tol : K) (x : Fin 3 → K) (J : Fin 3 → Fin 3 → K) (H : Fin 3 → Fin 6 → K) (pflag : U32) (p : Pt K 3) : Option (Pt K 3) :=
  let resid : Fin 3 → K := fun d => p.x d - x d
  let sr : Fin 3 → K := fun d => yAt3 J resid d * p.r d
  let face (d1 d2 dn : Fin 3) (hi0 hi1 hi2 : Fin 6) (out : Pt K 3) : Option (Pt K 3) :=
    some (newtonFace tol J ![rhAt H resid hi0, rhAt H resid hi1, rhAt H resid hi2] resid d1 d2 dn (pflag &&& ((3 : U32) <<< sh3 dn)) p out)
  let edge (de dn1 dn2 : Fin 3) (hi0 : Fin 6) (out : Pt K 3) : Option (Pt K 3) :=
    some (newtonEdge3 tol J (rhAt H resid hi0) resid de dn1 dn2 (pflag &&& ~~~((3 : U32) <<< sh3 de)) p out)
  (rejectPrior3 big tol resid p).bind fun
    | .inr out => some out
    | .inl out =>
      if sr 0 < 0 then
        if sr 1 < 0 then
          if sr 2 < 0 then newtonVol fuel tol J resid p out
          else face 0 1 2 0 1 3 out
        else if sr 2 < 0 then face 2 0 1 5 2 0 out
        else edge 0 1 2 0 out
      else if sr 1 < 0 then
        if sr 2 < 0 then face 1 2 0 3 4 5 out
        else edge 1 2 0 3 out
      else if sr 2 < 0 then edge 2 0 1 5 out
      else some { out with r := p.r, dist2p := 0, flags := pflag ||| 64 }

end Gslib.El
