import Verif.Model.NumMem
import Verif.Model.Legendre
import Verif.Model.GllTable
import Mathlib.Algebra.Order.Field.Basic
import Mathlib.Data.Rat.Cast.Defs

/-!
# Quadrature nodes and weights (poly.c:132-215)

`double` is replaced by an ordered field. `cos` is not modelled: `guess i` is the starting value of the Newton iteration for node `i`, and
`eps` is the constant `EPS`. The Newton loop need not terminate for arbitrary starting values, so it carries a bound `fuel` on the number
of steps; running out of it is `none`, and so is a division by zero and an out-of-bounds or uninitialised access. Arrays have `cap` doubles.
-/

namespace Gslib.Poly
open Gslib.Num
variable {K : Type} [Field K] [LinearOrder K]

/-- poly.c:144-147 and 160-163: `do { ox=x; x-=f(x)/df(x); } while(fabs(x-ox)>-x*EPS);` and the value `x` at the exit -/
def newtonLoop (f df : K → K) (eps : K) : Nat → K → Option K
  | 0, _ => none
  | fuel + 1, ox =>
      if df ox = 0 then none else
      let x := ox - f ox / df ox
      if |x - ox| > -x * eps then newtonLoop f df eps fuel x else some x

/-- poly.c:143-148: Newton loop and one more step -/
def newton (f df : K → K) (eps : K) (fuel : Nat) (x0 : K) : Option K :=
  (newtonLoop f df eps fuel x0).bind fun x => if df x = 0 then none else some (x - f x / df x)

/-- read with an `int` index -/
def rdI (cap : Nat) (m : Mem K) (i : Int) : Option K := if 0 ≤ i then rd cap m i.toNat else none

/-- poly.c:151, 167, 203, 214: `for(j=(n+1)/2,i=n/2-1; j<n; ++j,--i) z[j]=g(z[i]);` on the array starting at `z+off` -/
def mirror (cap off n : Nat) (g : K → K) (z : Mem K) : Option (Mem K) :=
  (forUp ((n + 1) / 2) (n - (n + 1) / 2) (fun j (s : Mem K × Int) =>
    (rdI cap s.1 (off + s.2)).bind fun v => (wr cap s.1 (off + j) (g v)).map fun z => (z, s.2 - 1)) (z, (n / 2 : Nat) - 1)).map Prod.fst

/-- poly.c:139-152 and 155-168: the common structure of `gauss_nodes` and `lobatto_nodes_aux` on the array starting at `z+off` -/
def halfNodes (cap off n : Nat) (root : Nat → Option K) (z : Mem K) : Option (Mem K) :=
  (forUp 0 (n / 2) (fun i z => (root i).bind fun x => wr cap z (off + i) x) z).bind fun z =>
  (if n % 2 = 1 then wr cap z (off + n / 2) 0 else some z).bind fun z =>
  mirror cap off n (fun v => -v) z

/-- poly.c:139-152 `gauss_nodes` -/
def gaussNodes (cap fuel : Nat) (eps : K) (guess : Nat → K) (n : Nat) (z : Mem K) : Option (Mem K) :=
  halfNodes cap 0 n (fun i => newton (legendre n) (legendreD1 n) eps fuel (guess i)) z

/-- poly.c:155-168 `lobatto_nodes_aux` on `&z[1]` -/
def lobattoNodesAux (cap fuel : Nat) (eps : K) (guess : Nat → K) (n : Nat) (z : Mem K) : Option (Mem K) :=
  halfNodes cap 1 n (fun i => newton (legendreD1 (n + 1)) (legendreD2 (n + 1)) eps fuel (guess i)) z

/-- poly.c:171-175 `lobatto_nodes_n` -/
def lobattoNodesN (cap fuel : Nat) (eps : K) (guess : Nat → K) (n : Nat) (z : Mem K) : Option (Mem K) :=
  (wr cap z 0 (-1)).bind fun z => (wr cap z (n - 1) 1).bind fun z => lobattoNodesAux cap fuel eps guess (n - 2) z

/-- read entry `i-1` of `gllz_table[n-4]` with an `int` `i` -/
def gllzRd (n : Nat) (i : Int) : Option K := if 1 ≤ i then ((gllz n)[(i - 1).toNat]?).map fun q => (q : K) else none

/-- poly.c:177-187 `lobatto_nodes_fix` -/
def lobattoNodesFix (cap n : Nat) (z : Mem K) : Option (Mem K) :=
  (wr cap z 0 (-1)).bind fun z => (wr cap z (n - 1) 1).bind fun z =>
  (if n % 2 = 1 then wr cap z (n / 2) 0 else some z).bind fun z =>
  if 4 ≤ n then
    (forUp 1 (n / 2 - 1) (fun i z => (gllzRd n i).bind fun v => wr cap z i (-v)) z).bind fun z =>
    (forUp ((n + 1) / 2) (n - 1 - (n + 1) / 2) (fun j (s : Mem K × Int) =>
      (gllzRd n s.2).bind fun v => (wr cap s.1 j v).map fun z => (z, s.2 - 1)) (z, (n / 2 : Nat) - 1)).map Prod.fst
  else some z

/-- poly.c:189-193 `lobatto_nodes`; `GLL_LAG_FIX_MAX` is 24 (poly_imp.h:3) -/
def lobattoNodes (cap fuel : Nat) (eps : K) (guess : Nat → K) (n : Nat) (z : Mem K) : Option (Mem K) :=
  if 24 < n then lobattoNodesN cap fuel eps guess n z else if 2 ≤ n then lobattoNodesFix cap n z else some z

/-- poly.c:195-204 `gauss_quad`: the arrays `z` and `w` after the call. The loop bound is C's `(n-1)/2`, rounded towards zero. -/
def gaussQuad (cap fuel : Nat) (eps : K) (guess : Nat → K) (n : Nat) (z w : Mem K) : Option (Mem K × Mem K) :=
  (gaussNodes cap fuel eps guess n z).bind fun z =>
  (forUp 0 ((n - 1) / 2 + 1) (fun i w => (rd cap z i).bind fun zi =>
    let d := ((n : K) + 1) * legendre (n + 1) zi
    wr cap w i (2 * (1 - zi * zi) / (d * d))) w).bind fun w =>
  (mirror cap 0 n id w).map fun w => (z, w)

/-- poly.c:206-215 `lobatto_quad` -/
def lobattoQuad (cap fuel : Nat) (eps : K) (guess : Nat → K) (n : Nat) (z w : Mem K) : Option (Mem K × Mem K) :=
  (lobattoNodes cap fuel eps guess n z).bind fun z =>
  (forUp 0 ((n - 1) / 2 + 1) (fun i w => (rd cap z i).bind fun zi =>
    let d := legendre (n - 1) zi
    wr cap w i (2 / (((n : K) - 1) * n * d * d))) w).bind fun w =>
  (mirror cap 0 n id w).map fun w => (z, w)

end Gslib.Poly
