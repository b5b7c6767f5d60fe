import Verif.Model.CommTree

/-!
# comm_dot (comm.c:183-188) with floating point arithmetic

`step sum x y` is the value of `sum + x * y` as the compiler evaluates it (two roundings, or one with a fused multiply-add); nothing is assumed about it here.
`tensor_dot` is the loop of tensor.c:12-17 (with `GSLIB_USE_CBLAS` it is a BLAS call, tensor.h:14, which is not modelled).
-/

namespace Gslib.Comm
open Gslib Gslib.Mpi Gslib.Gs

variable {T : Type}

/-- tensor.c:15 `for(;n;--n) sum += *a++ * *b++;` reading past the end of an array is undefined -/
def dotFlLoop (step : T → T → T → T) : List T → List T → Nat → T → Outcome T
  | _, _, 0, sum => .ok sum
  | a :: as, b :: bs, n + 1, sum => dotFlLoop step as bs n (step sum a b)
  | _, _, _ + 1, _ => .ub

/-- tensor.c:12-17 `tensor_dot` -/
def dotFl (step : T → T → T → T) (zero : T) (a b : List T) (n : Nat) : Outcome T := dotFlLoop step a b n zero

/-- comm.c:183-188 `double s=tensor_dot(v,w,n),b; comm_allreduce(comm,gs_double,gs_add, &s,1, &b); return s;` where process `p` passes `v p`, `w p`, `n p`;
the memory is the variable `s` -/
def commDot (D : Dom T) (step : T → T → T → T) (zero : T) (v w : Nat → List T) (n : Nat → Nat) (np : Nat) : Coll (List T) (List T) :=
  (Coll.loc (fun p _ => (dotFl step zero (v p) (w p) (n p)).bind fun s => .ok [s]) []).seq (commAllreduce D .add 1 np)

end Gslib.Comm
