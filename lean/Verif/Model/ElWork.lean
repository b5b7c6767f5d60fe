import Verif.Model.Tensor
import Verif.Model.NumMem

/-!
# Work arrays of the element kernels (findpts_el_2.c, findpts_el_3.c)

A work array is the list of its entries; an access past its end, or a kernel or `memcpy` whose input and output overlap, has no result (`none`). Sizes are natural numbers.
-/

namespace Gslib.El
open Gslib.Tensor Gslib.Num

variable {K : Type}

/-- `[a,a+m)` and `[b,b+n)` do not overlap -/
def disj (a m b n : Nat) : Bool := decide (a + m ≤ b) || decide (b + n ≤ a)

/-- `memcpy(dst+o, src+s, len*sizeof(double))` between two arrays -/
def cpy (dst : List K) (o : Nat) (src : List K) (s len : Nat) : Option (List K) :=
  if s + len ≤ src.length then store dst o ((src.drop s).take len) else none

/-- `memcpy(w+o, w+s, len*sizeof(double))` inside one array -/
def cpyIn (w : List K) (o s len : Nat) : Option (List K) := if disj o len s len then cpy w o w s len else none

variable [CommSemiring K]

/-- `tensor_mxm(w+c,nc, A,na, w+b,nb)` -/
def mxmIn (w : List K) (c nc : Nat) (A : List K) (na b nb : Nat) : Option (List K) :=
  if disj c (nc * nb) b (na * nb) then (mxm nc A na (w.drop b) nb).bind (store w c) else none

/-- `tensor_mtxm(w+c,nc, A,na, w+b,nb)` -/
def mtxmIn (w : List K) (c nc : Nat) (A : List K) (na b nb : Nat) : Option (List K) :=
  if disj c (nc * nb) b (na * nb) then (mtxm nc A na (w.drop b) nb).bind (store w c) else none

/-- `tensor_mtxv(w+y,ny, w+a, x,nx)` -/
def mtxvIn (w : List K) (y ny a : Nat) (x : List K) (nx : Nat) : Option (List K) :=
  if disj y ny a (nx * ny) then (mtxv ny (w.drop a) x nx).bind (store w y) else none

end Gslib.El
