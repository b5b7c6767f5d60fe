import Verif.Model.LagFl

/-!
# First derivatives of the Lagrange polynomials with floating point arithmetic (poly.c)

As `Model/LagFl`: `lagrange_eval` with `der=1`. `step s x y` is `s+x*y` (two roundings, or one if contracted). Of the two products in `p1[i]` the second one may be contracted.
-/

namespace Gslib.LagFl
variable {K : Type} [Field K]

/-- poly.c:37: `u1[0]=0; for(i=0;i<n-1;++i) u1[i+1]=u1[i]*d[i]+u0[i];` from an entry with the value `v` on; the lists are the entries of `d` and `u0` from there on -/
def u1Row (step : K → K → K → K) : List K → List K → K → List K
  | d :: ds, u :: us, v => v :: u1Row step ds us (step u v d)
  | _, _, _ => []

/-- poly.c:38: `v1[n-1]=0; for(i=n-1;i;--i) v1[i-1]=d[i]*v1[i]+v0[i];`; the lists are `d` and `v0` -/
def v1Row (step : K → K → K → K) : List K → List K → List K
  | _ :: d :: ds, _ :: v :: vs => step v d ((v1Row step (d :: ds) (v :: vs)).headD 0) :: v1Row step (d :: ds) (v :: vs)
  | [_], _ => [0]
  | _, _ => []

/-- poly.c:25-40 `lagrange_eval` with `der=1`: the entries `p1[i]=2*w[i]*(u1[i]*v0[i]+u0[i]*v1[i])` stored after the `n` values -/
def evalDerFl (rnd : K → K) (step : K → K → K → K) (z w : List K) (x : K) : List K :=
  let d := z.map fun zi => 2 * rnd (x - zi)
  let u0 := uRow rnd d 1
  let v0 := vRow rnd d
  let u1 := u1Row step d u0 0
  let v1 := v1Row step d v0
  (List.range z.length).map fun i => rnd (2 * w.getD i 0 * step (rnd (u1.getD i 0 * v0.getD i 0)) (u0.getD i 0) (v1.getD i 0))

/-- poly.c:25-46 `lagrange_eval` with `der=2`: the entries `p2[i]` stored last. The loops of lines 42-43, `u2[i+1]=u2[i]*d[i]+2*u1[i]` and `v2[i-1]=d[i]*v2[i]+2*v1[i]`, are those of lines 37-38 with the
doubled rows. In `u2[i]*v0[i]+2*u1[i]*v1[i]+u0[i]*v2[i]` the last two products may be contracted -/
def evalDer2Fl (rnd : K → K) (step : K → K → K → K) (z w : List K) (x : K) : List K :=
  let d := z.map fun zi => 2 * rnd (x - zi)
  let u0 := uRow rnd d 1
  let v0 := vRow rnd d
  let u1 := u1Row step d u0 0
  let v1 := v1Row step d v0
  let u2 := u1Row step d (u1.map fun y => 2 * y) 0
  let v2 := v1Row step d (v1.map fun y => 2 * y)
  (List.range z.length).map fun i => rnd (4 * w.getD i 0 * step (step (rnd (u2.getD i 0 * v0.getD i 0)) (2 * u1.getD i 0) (v1.getD i 0)) (u0.getD i 0) (v2.getD i 0))

end Gslib.LagFl
