import Verif.Model.TensorFl
import Mathlib.Algebra.Field.Defs

/-!
# Lagrange weights with floating point arithmetic (poly.c)

As `Model/Lagrange` (which has the memory accesses), without derivatives; every operation except the exact doubling is followed by `rnd`. The arrays are lists. The generated functions of poly_imp.h for up to 24 nodes
do the same operations (products with 1 are exact).
-/

namespace Gslib.LagFl
variable {K : Type} [Field K]

/-- poly.c:32: `u0[0]=1; for(i=0;i<n-1;++i) u0[i+1]=u0[i]*d[i];` from an entry with the value `u` on -/
def uRow (rnd : K → K) : List K → K → List K
  | [], _ => []
  | d :: ds, u => u :: uRow rnd ds (rnd (u * d))

/-- poly.c:33: `v0[n-1]=1; for(i=n-1;i;--i) v0[i-1]=d[i]*v0[i];` -/
def vRow (rnd : K → K) : List K → List K
  | [] => []
  | [_] => [1]
  | _ :: d :: ds => rnd (d * (vRow rnd (d :: ds)).headD 0) :: vRow rnd (d :: ds)

/-- poly.c:34 `p[i]=w[i]*u0[i]*v0[i]` -/
def pRow (rnd : K → K) : List K → List K → List K → List K
  | w :: ws, u :: us, v :: vs => rnd (rnd (w * u) * v) :: pRow rnd ws us vs
  | _, _, _ => []

/-- poly.c:25-34 `lagrange_eval` with `der=0`; `d[i]=2*(x-z[i])` -/
def evalFl (rnd : K → K) (z w : List K) (x : K) : List K :=
  let d := z.map fun zi => 2 * rnd (x - zi)
  pRow rnd w (uRow rnd d 1) (vRow rnd d)

/-- poly.c:50-57 `lagrange_coef`: all `w[i]` are 1, then `w[i]=1/p[i]` for `x=z[i]`. The rows `p` of later nodes contain weights already replaced; entry `i` of row `i` does not depend on them -/
def coefLoop (rnd : K → K) (z : List K) : Nat → Nat → List K → List K
  | 0, _, w => w
  | k + 1, i, w => coefLoop rnd z k (i + 1) (w.set i (rnd (1 / (evalFl rnd z w (z.getD i 0)).getD i 0)))

/-- poly.c:50-57 `lagrange_coef` -/
def coefFl (rnd : K → K) (z : List K) : List K := coefLoop rnd z z.length 0 (List.replicate z.length 1)

/-- findpts_el_2.c:805-809 and then 812-818: `findpts_el_eval_2` for one element with nodes `zr`, `zs` and points `pts` -/
def elEval2 (rnd : K → K) (step : K → K → K → K) (zr zs : List K) (pts : List (K × K)) (inp : List K) : Option (List K) :=
  TensorFl.eval2 step 0 zr.length zs.length pts.length (pts.flatMap fun r => evalFl rnd zr (coefFl rnd zr) r.1) (pts.flatMap fun r => evalFl rnd zs (coefFl rnd zs) r.2) inp

/-- findpts_el_3.c:1303-1316: `findpts_el_eval_3` for one element with nodes `zr`, `zs`, `zt` and points `pts` -/
def elEval3 (rnd : K → K) (step : K → K → K → K) (mul : K → K → K) (zr zs zt : List K) (pts : List (K × K × K)) (inp : List K) : Option (List K) :=
  TensorFl.eval3 step mul 0 zr.length zs.length zt.length pts.length
    (pts.flatMap fun r => evalFl rnd zr (coefFl rnd zr) r.1 ++ evalFl rnd zs (coefFl rnd zs) r.2.1) (pts.flatMap fun r => evalFl rnd zt (coefFl rnd zt) r.2.2) inp

end Gslib.LagFl
