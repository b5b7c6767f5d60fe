import Verif.Model.LobBnd
import Verif.Model.Tensor
import Verif.Model.LinSolve
import Mathlib.Algebra.BigOperators.Group.Finset.Basic

/-!
# Bounding boxes of elements (obbox.c, obbox.h)

`double` is an ordered field. The block allocated at obbox.c:145 (2D) and 247 (3D) is split by the pointers set up after it into `I0r`, `I0s`(, `I0t`), the `lob_bnd_data` arrays and `work`;
each is an array of its own here whose capacity is the distance to the next pointer (for `work`: to the end of the block, `wsize`). Arrays of `elx` have `ucap` doubles.
Vectors and matrices of dimension `d` (`x0`, `J`, `Ji`, `c0`, `A` row by row) are functions of indices. The macros `DO_EDGE` (2D, 178-184) and `DO_FACE` (3D, 285-293) differ only in the
number of coordinates and in the bounding function; both are `doPatch`. Size products are assumed not to wrap. A division by zero (infinity or NaN in C) makes the result `none`.
-/

namespace Gslib.Obb
open Gslib.Num Gslib.Poly Gslib.Lob Finset
variable {K : Type} [Field K] [LinearOrder K]

/-- obbox.h:52-56 `struct obbox_2`, `obbox_3` -/
structure Box (K : Type) where
  c0 : Nat → K
  A : Nat → Nat → K
  x : Nat → K × K

/-- obbox.h:68-73 `obbox_axis_test_2` -/
def axisTest2 (b : Box K) (x : Nat → K) : K :=
  let bx := (x 0 - (b.x 0).1) * ((b.x 0).2 - x 0)
  if bx < 0 then bx else (x 1 - (b.x 1).1) * ((b.x 1).2 - x 1)

/-- obbox.h:76-86 `obbox_test_2` -/
def test2 (b : Box K) (x : Nat → K) : K :=
  let bxy := axisTest2 b x
  if bxy < 0 then bxy else
  let dx := x 0 - b.c0 0
  let dy := x 1 - b.c0 1
  let r := b.A 0 0 * dx + b.A 0 1 * dy
  let s := b.A 1 0 * dx + b.A 1 1 * dy
  let br := (r + 1) * (1 - r)
  if br < 0 then br else (s + 1) * (1 - s)

/-- obbox.h:89-95 `obbox_axis_test_3` -/
def axisTest3 (b : Box K) (x : Nat → K) : K :=
  let bx := (x 0 - (b.x 0).1) * ((b.x 0).2 - x 0)
  let by' := (x 1 - (b.x 1).1) * ((b.x 1).2 - x 1)
  if bx < 0 then bx else if by' < 0 then by' else (x 2 - (b.x 2).1) * ((b.x 2).2 - x 2)

/-- obbox.h:98-110 `obbox_test_3` -/
def test3 (b : Box K) (x : Nat → K) : K :=
  let bxyz := axisTest3 b x
  if bxyz < 0 then bxyz else
  let dx := x 0 - b.c0 0
  let dy := x 1 - b.c0 1
  let dz := x 2 - b.c0 2
  let r := b.A 0 0 * dx + b.A 0 1 * dy + b.A 0 2 * dz
  let s := b.A 1 0 * dx + b.A 1 1 * dy + b.A 1 2 * dz
  let t := b.A 2 0 * dx + b.A 2 1 * dy + b.A 2 2 * dz
  let br := (r + 1) * (1 - r)
  let bs := (s + 1) * (1 - s)
  if br < 0 then br else if bs < 0 then bs else (t + 1) * (1 - t)

/-- obbox.c:58-64 `dbl_range_merge` -/
def merge (a b : K × K) : K × K := (if b.1 < a.1 then b.1 else a.1, if a.2 > b.2 then a.2 else b.2)

/-- obbox.c:66-72 `dbl_range_expand` -/
def expand (b : K × K) (tol : K) : K × K :=
  let a := (b.1 + b.2) / 2
  let l := (b.2 - b.1) * (1 + tol) / 2
  (a - l, a + l)

/-- a pointer passed to the bounding functions: into an array of its own with a capacity, or (`own = none`) into `work` -/
structure Src (K : Type) where
  own : Option (Mem K × Nat)
  off : Nat

/-- the array a pointer points into, and its capacity -/
def Src.arr (s : Src K) (wcap : Nat) (w : Mem K) : Mem K × Nat := s.own.getD (w, wcap)

/-- obbox.c:172-173: `lob_bnd_1(lob_bnd_data,n,m,x,work)`; arguments overlapping in spite of `restrict` are `none` -/
def bound1 (n m : Nat) (D : Mem K) (wcap : Nat) (s : Src K) (wo : Nat) (w : Mem K) : Option ((K × K) × Mem K) :=
  if s.own.isNone ∧ ¬ (s.off + n ≤ wo ∨ wo + 2 * m ≤ s.off) then none else
  bnd1 n m D (s.arr wcap w).2 (s.arr wcap w).1 s.off wcap wo w

/-- obbox.c:278-280: `lob_bnd_2(..,x,work)`; arguments overlapping in spite of `restrict` are `none` -/
def bound2 (nr mr : Nat) (Dr : Mem K) (ns ms : Nat) (Ds : Mem K) (wcap : Nat) (s : Src K) (wo : Nat) (w : Mem K) : Option ((K × K) × Mem K) :=
  if s.own.isNone ∧ ¬ (s.off + ns * nr ≤ wo ∨ wo + 2 * mr * (ms + 1 + ns) ≤ s.off) then none else
  bnd2 nr mr Dr ns ms Ds (s.arr wcap w).2 (s.arr wcap w).1 s.off wcap wo w

/-- the ranges `ab`, `tb` (uninitialised at first) and `work` -/
structure St (K : Type) where
  ab : Nat → Option (K × K)
  tb : Nat → Option (K × K)
  w : Mem K

/-- obbox.c:174: `if(merge) bnd=dbl_range_merge(bnd,b); else bnd=b;` -/
def mrg (m : Bool) (old : Option (K × K)) (b : K × K) : Option (K × K) := if m then old.map fun a => merge a b else some b

/-- assignment to entry `c` -/
def upd (f : Nat → Option (K × K)) (c : Nat) (b : K × K) : Nat → Option (K × K) := fun k => if k = c then some b else f k

/-- the coordinates of point `i` -/
def readPt (wcap : Nat) (src : Nat → Src K) (w : Mem K) (i : Nat) : Nat → Option (List K)
  | 0 => some []
  | d + 1 => (readPt wcap src w i d).bind fun l => (rd ((src d).arr wcap w).2 ((src d).arr wcap w).1 ((src d).off + i)).map fun v => l ++ [v]

/-- obbox.c:74-84 `bbox_2_tfm`, 86-97 `bbox_3_tfm` with output at `work+wo` -/
def tfm (d N wcap : Nat) (x0 : Nat → K) (Ji : Nat → Nat → K) (src : Nat → Src K) (wo : Nat) (w : Mem K) : Option (Mem K) :=
  forUp 0 N (fun i w => (readPt wcap src w i d).bind fun l =>
    forUp 0 d (fun c w => wr wcap w (wo + c * N + i) (∑ e ∈ range d, Ji c e * (l.getD e 0 - x0 e))) w) w

/-- obbox.c:178-184 `DO_EDGE` (d=2), 285-293 `DO_FACE` (d=3); `bnd` is the call of `lob_bnd_1` or `lob_bnd_2`, `N` the number of nodes -/
def doPatch (d N : Nat) (bnd : Src K → Nat → Mem K → Option ((K × K) × Mem K)) (wcap : Nat) (m : Bool) (x0 : Nat → K) (Ji : Nat → Nat → K) (src : Nat → Src K) (wo : Nat) (s : St K) :
    Option (St K) :=
  (forUp 0 d (fun c s => (bnd (src c) wo s.w).bind fun b => (mrg m (s.ab c) b.1).map fun r => ⟨upd s.ab c r, s.tb, b.2⟩) s).bind fun s =>
  (tfm d N wcap x0 Ji src wo s.w).bind fun w =>
  forUp 0 d (fun c s => (bnd ⟨none, wo + c * N⟩ (wo + d * N) s.w).bind fun b => (mrg m (s.tb c) b.1).map fun r => ⟨s.ab, upd s.tb c r, b.2⟩) (⟨s.ab, s.tb, w⟩ : St K)

/-- obbox.c:23-31 `copy_strided` to `work+o` from `in+io` -/
def copyStrided (icap : Nat) (inp : Mem K) (io g s n wcap o : Nat) (w : Mem K) : Option (Mem K) :=
  forUp 0 n (fun k w => forUp 0 g (fun i w => (rd icap inp (io + k * (s * g) + i)).bind fun v => wr wcap w (o + k * g + i) v) w) w

/-- obbox.c:190-194 `GET_EDGE` (d=2), 299-304 `GET_FACE` (d=3): copies of the coordinates side by side in `work`, then the patch -/
def getPatch (d N : Nat) (bnd : Src K → Nat → Mem K → Option ((K × K) × Mem K)) (wcap : Nat) (x0 : Nat → K) (Ji : Nat → Nat → K) (ucap : Nat) (el : Nat → Mem K) (io g s n : Nat) (st : St K) :
    Option (St K) :=
  (forUp 0 d (fun c w => copyStrided ucap (el c) io g s n wcap (c * N) w) st.w).bind fun w =>
  doPatch d N bnd wcap true x0 Ji (fun c => ⟨none, c * N⟩) (d * N) (⟨st.ab, st.tb, w⟩ : St K)

/-- obbox.c:202-217 (2D), 314-337 (3D): the box from the ranges -/
def mkBox (d : Nat) (x0 : Nat → K) (J Ji : Nat → Nat → K) (ab tb : Nat → K × K) (tol : K) : Box K where
  x c := expand (ab c) tol
  c0 c := x0 c + ∑ e ∈ range d, J c e * (((tb e).1 + (tb e).2) / 2)
  A c e := 2 / ((1 + tol) * ((tb c).2 - (tb c).1)) * Ji c e

/-- obbox.c:140-144: `wsize` of `obbox_calc_2` -/
def wsize2 (nr mr ns ms : Nat) : Nat := max (max (max (4 * ns + 2 * ms) (2 * nr + 2 * mr)) (gllLagSize nr)) (gllLagSize ns)

/-- obbox.c:239-246: `wsize` of `obbox_calc_3` -/
def wsize3 (nr mr ns ms nt mt : Nat) : Nat :=
  max (max (max (max (max (max (3 * nr * ns + 2 * mr * (ns + ms + 1)) (6 * nr * nt + 2 * mr * (nt + mt + 1))) (6 * ns * nt + 2 * ms * (nt + mt + 1))) (2 * nr * ns + 3 * nr)) (gllLagSize nr))
    (gllLagSize ns)) (gllLagSize nt)

/-- obbox.c:152-156, 255-259 `SETUP_DIR`: `I0` (2n doubles) and `lob_bnd_data`; the data of `gll_lag_setup` is kept in `work` -/
def setupDir (fuel : Nat) (eps : K) (guess ch : Nat → Nat → K) (wcap n m : Nat) : Option (Mem K × Mem K) :=
  if gllLagSize n ≤ wcap then
    (gllLagSetup fuel eps (guess n) n).bind fun g => (gllEval n (2 * n) 1 0 ((fun _ => none : Mem K), g)).bind fun s =>
    (setup fuel eps (guess n) (ch m) n m).map fun D => (s.1, D)
  else none

/-- `k` doubles from `m+off` -/
def readAt (cap : Nat) (m : Mem K) (off k : Nat) : Option (List K) := readRow (cap - off) (fun i => m (off + i)) k

/-- entry `(c,e)` of a row-major matrix -/
def at2 (A : Fin 4 → K) (c e : Nat) : K := if h : c * 2 + e < 4 then A ⟨c * 2 + e, h⟩ else 0

/-- entry `(c,e)` of a row-major matrix -/
def at3 (A : Fin 9 → K) (c e : Nat) : K := if h : c * 3 + e < 9 then A ⟨c * 3 + e, h⟩ else 0

/-- obbox.c:169-218: bounds of the edges of one element, whose coordinates are `el 0`, `el 1` from `xo` on, and the box -/
def edges2 (nr mr : Nat) (Dr : Mem K) (ns ms : Nat) (Ds : Mem K) (tol : K) (wcap ucap : Nat) (el : Nat → Mem K) (xo : Nat) (x0 : Nat → K) (J Ji : Nat → Nat → K) : Option (Box K) :=
  ((doPatch 2 nr (bound1 nr mr Dr wcap) wcap false x0 Ji (fun c => ⟨some (el c, ucap), xo⟩) 0 ⟨fun _ => none, fun _ => none, fun _ => none⟩).bind fun s =>
    (doPatch 2 nr (bound1 nr mr Dr wcap) wcap true x0 Ji (fun c => ⟨some (el c, ucap), xo + (nr * ns - nr)⟩) 0 s).bind fun s =>
    (getPatch 2 ns (bound1 ns ms Ds wcap) wcap x0 Ji ucap el (xo + 0) 1 nr ns s).bind fun s =>
    getPatch 2 ns (bound1 ns ms Ds wcap) wcap x0 Ji ucap el (xo + (nr - 1)) 1 nr ns s).bind fun s =>
  (s.ab 0).bind fun a0 => (s.ab 1).bind fun a1 => (s.tb 0).bind fun t0 => (s.tb 1).bind fun t1 =>
  if (1 + tol) * (t0.2 - t0.1) = 0 ∨ (1 + tol) * (t1.2 - t1.1) = 0 then none else
  some (mkBox 2 x0 J Ji (fun c => if c = 0 then a0 else a1) (fun c => if c = 0 then t0 else t1) tol)

/-- obbox.c:163-168: value and Jacobian at the centre and its inverse, then the edges. `gx`, `gy` are the results of `tensor_ig2` for the two coordinates. -/
def centre2 (gx gy : K × List K) (f : (Nat → K) → (Nat → Nat → K) → (Nat → Nat → K) → Option (Box K)) : Option (Box K) :=
  let J : Fin 4 → K := ![gx.2.getD 0 0, gx.2.getD 1 0, gy.2.getD 0 0, gy.2.getD 1 0]
  if J 0 * J 3 - J 1 * J 2 = 0 then none else f (fun c => if c = 0 then gx.1 else gy.1) (at2 J) (at2 (Lin.matInv2 J))

/-- obbox.c:163-218: one element. `tensor_ig2` uses `work` as scratch: its contents afterwards are taken to be undefined. -/
def calcEl2 (nr mr : Nat) (I0r Dr : Mem K) (ns ms : Nat) (I0s Ds : Mem K) (tol : K) (ucap : Nat) (el : Nat → Mem K) (xo : Nat) : Option (Box K) :=
  (readAt (2 * nr) I0r 0 (2 * nr)).bind fun ir => (readAt (2 * ns) I0s 0 (2 * ns)).bind fun is =>
  (readAt ucap (el 0) xo (nr * ns)).bind fun x => (readAt ucap (el 1) xo (nr * ns)).bind fun y =>
  (Tensor.ig2 ir nr is ns x (List.replicate (wsize2 nr mr ns ms) 0)).bind fun gx => (Tensor.ig2 ir nr is ns y (List.replicate (wsize2 nr mr ns ms) 0)).bind fun gy =>
  centre2 gx gy (edges2 nr mr Dr ns ms Ds tol (wsize2 nr mr ns ms) ucap el xo)

/-- obbox.c:127-223 `obbox_calc_2`: the boxes of `nel` elements -/
def calc2 (fuel : Nat) (eps : K) (guess ch : Nat → Nat → K) (nr mr ns ms nel : Nat) (tol : K) (ucap : Nat) (el : Nat → Mem K) : Option (Nat → Option (Box K)) :=
  let wcap := wsize2 nr mr ns ms
  (setupDir fuel eps guess ch wcap nr mr).bind fun r => (setupDir fuel eps guess ch wcap ns ms).bind fun s =>
  forUp 0 nel (fun e out => (calcEl2 nr mr r.1 r.2 ns ms s.1 s.2 tol ucap el (e * (nr * ns))).map fun b => fun k => if k = e then some b else out k) (fun _ => none)

/-- obbox.c:272-339: bounds of the faces of one element, and the box -/
def faces3 (nr mr : Nat) (Dr : Mem K) (ns ms : Nat) (Ds : Mem K) (nt mt : Nat) (Dt : Mem K) (tol : K) (wcap ucap : Nat) (el : Nat → Mem K) (xo : Nat) (x0 : Nat → K) (J Ji : Nat → Nat → K) :
    Option (Box K) :=
  ((doPatch 3 (nr * ns) (bound2 nr mr Dr ns ms Ds wcap) wcap false x0 Ji (fun c => ⟨some (el c, ucap), xo⟩) 0 ⟨fun _ => none, fun _ => none, fun _ => none⟩).bind fun s =>
    (doPatch 3 (nr * ns) (bound2 nr mr Dr ns ms Ds wcap) wcap true x0 Ji (fun c => ⟨some (el c, ucap), xo + (nr * ns * nt - nr * ns)⟩) 0 s).bind fun s =>
    (getPatch 3 (nr * nt) (bound2 nr mr Dr nt mt Dt wcap) wcap x0 Ji ucap el (xo + 0) nr ns nt s).bind fun s =>
    (getPatch 3 (nr * nt) (bound2 nr mr Dr nt mt Dt wcap) wcap x0 Ji ucap el (xo + (nr * ns - nr)) nr ns nt s).bind fun s =>
    (getPatch 3 (ns * nt) (bound2 ns ms Ds nt mt Dt wcap) wcap x0 Ji ucap el (xo + 0) 1 nr (ns * nt) s).bind fun s =>
    getPatch 3 (ns * nt) (bound2 ns ms Ds nt mt Dt wcap) wcap x0 Ji ucap el (xo + (nr - 1)) 1 nr (ns * nt) s).bind fun s =>
  (s.ab 0).bind fun a0 => (s.ab 1).bind fun a1 => (s.ab 2).bind fun a2 => (s.tb 0).bind fun t0 => (s.tb 1).bind fun t1 => (s.tb 2).bind fun t2 =>
  if (1 + tol) * (t0.2 - t0.1) = 0 ∨ (1 + tol) * (t1.2 - t1.1) = 0 ∨ (1 + tol) * (t2.2 - t2.1) = 0 then none else
  some (mkBox 3 x0 J Ji (fun c => if c = 0 then a0 else if c = 1 then a1 else a2) (fun c => if c = 0 then t0 else if c = 1 then t1 else t2) tol)

/-- obbox.c:264-271: value and Jacobian at the centre and its inverse, then the faces -/
def centre3 (gx gy gz : K × List K) (f : (Nat → K) → (Nat → Nat → K) → (Nat → Nat → K) → Option (Box K)) : Option (Box K) :=
  let J : Fin 9 → K := ![gx.2.getD 0 0, gx.2.getD 1 0, gx.2.getD 2 0, gy.2.getD 0 0, gy.2.getD 1 0, gy.2.getD 2 0, gz.2.getD 0 0, gz.2.getD 1 0, gz.2.getD 2 0]
  if J 0 * (J 4 * J 8 - J 5 * J 7) + J 1 * (J 5 * J 6 - J 3 * J 8) + J 2 * (J 3 * J 7 - J 4 * J 6) = 0 then none else
  f (fun c => if c = 0 then gx.1 else if c = 1 then gy.1 else gz.1) (at3 J) (at3 (Lin.matInv3 J))

/-- obbox.c:264-339: one element in 3D -/
def calcEl3 (nr mr : Nat) (I0r Dr : Mem K) (ns ms : Nat) (I0s Ds : Mem K) (nt mt : Nat) (I0t Dt : Mem K) (tol : K) (ucap : Nat) (el : Nat → Mem K) (xo : Nat) : Option (Box K) :=
  (readAt (2 * nr) I0r 0 (2 * nr)).bind fun ir => (readAt (2 * ns) I0s 0 (2 * ns)).bind fun is => (readAt (2 * nt) I0t 0 (2 * nt)).bind fun it =>
  (readAt ucap (el 0) xo (nr * ns * nt)).bind fun x => (readAt ucap (el 1) xo (nr * ns * nt)).bind fun y => (readAt ucap (el 2) xo (nr * ns * nt)).bind fun z =>
  (Tensor.ig3 ir nr is ns it nt x (List.replicate (wsize3 nr mr ns ms nt mt) 0)).bind fun gx => (Tensor.ig3 ir nr is ns it nt y (List.replicate (wsize3 nr mr ns ms nt mt) 0)).bind fun gy =>
  (Tensor.ig3 ir nr is ns it nt z (List.replicate (wsize3 nr mr ns ms nt mt) 0)).bind fun gz =>
  centre3 gx gy gz (faces3 nr mr Dr ns ms Ds nt mt Dt tol (wsize3 nr mr ns ms nt mt) ucap el xo)

/-- obbox.c:225-340 `obbox_calc_3` -/
def calc3 (fuel : Nat) (eps : K) (guess ch : Nat → Nat → K) (nr mr ns ms nt mt nel : Nat) (tol : K) (ucap : Nat) (el : Nat → Mem K) : Option (Nat → Option (Box K)) :=
  let wcap := wsize3 nr mr ns ms nt mt
  (setupDir fuel eps guess ch wcap nr mr).bind fun r => (setupDir fuel eps guess ch wcap ns ms).bind fun s => (setupDir fuel eps guess ch wcap nt mt).bind fun t =>
  forUp 0 nel (fun e out => (calcEl3 nr mr r.1 r.2 ns ms s.1 s.2 nt mt t.1 t.2 tol ucap el (e * (nr * ns * nt))).map fun b => fun k => if k = e then some b else out k) (fun _ => none)

end Gslib.Obb
