import Mathlib.Data.List.GetD

/-!
# Interpolation with floating point arithmetic (tensor.c, findpts_el_eval_2, findpts_el_eval_3)

`step s x y` is the value of `s + x * y` as the compiler evaluates it (two roundings, or one with a fused multiply-add) and `mul x y` that of `x * y`. Arrays are lists; reading past the end is `none`. Default build (GSLIB_USE_NAIVE_BLAS).
-/

namespace Gslib.TensorFl
variable {T : Type}

/-- tensor.c:12-17 `tensor_dot`, the loop with its accumulator -/
def dotLoop (step : T → T → T → T) : List T → List T → Nat → T → Option T
  | _, _, 0, sum => some sum
  | a :: as, b :: bs, n + 1, sum => dotLoop step as bs n (step sum a b)
  | _, _, _ + 1, _ => none

/-- tensor.c:62: `for(i=0;i<nc;++i) C[i] += (*A_++) * b;` for the entries of `C` -/
def addScaled (step : T → T → T → T) : List T → List T → T → Option (List T)
  | [], _, _ => some []
  | _ :: _, [], _ => none
  | c :: C, a :: A, b => (addScaled step C A b).map (step c a b :: ·)

/-- tensor.c:60-63: the loop over `k` for one column of `C` -/
def mxmCol (step : T → T → T → T) (nc : Nat) : Nat → List T → List T → List T → Option (List T)
  | 0, C, _, _ => some C
  | _ + 1, _, _, [] => none
  | na + 1, C, A, b :: B => (addScaled step C A b).bind fun C => mxmCol step nc na C (A.drop nc) B

/-- tensor.c:52-65 `tensor_mxm`: the `nc*nb` values stored through `C` (zeroed first) -/
def mxm (step : T → T → T → T) (zero : T) (nc : Nat) (A : List T) (na : Nat) : List T → Nat → Option (List T)
  | _, 0 => some []
  | B, nb + 1 => (mxmCol step nc na (List.replicate nc zero) A B).bind fun c => (mxm step zero nc A na (B.drop na) nb).map (c ++ ·)

/-- tensor.c:38-49 `tensor_mtxv`; the first product is not added to 0 -/
def mtxv (step : T → T → T → T) (mul : T → T → T) : Nat → List T → List T → Nat → Option (List T)
  | 0, _, _, _ => some []
  | ny + 1, a :: A, x :: xs, nx + 1 =>
    (dotLoop step A xs nx (mul a x)).bind fun s => (mtxv step mul ny (A.drop nx) (x :: xs) (nx + 1)).map (s :: ·)
  | _ + 1, _, _, _ => none

/-- tensor.h:91-97 `tensor_i2`; the `ns` values written to `work` are the values read from it -/
def i2 (step : T → T → T → T) (mul : T → T → T) (zero : T) (Jr : List T) (nr : Nat) (Js : List T) (ns : Nat) (u : List T) : Option T :=
  (mtxv step mul ns u Jr nr).bind fun v => dotLoop step Js v ns zero

/-- findpts_el_2.c:812-818: the values of `findpts_el_eval_2` for `pn` points, after the weights have been computed -/
def eval2 (step : T → T → T → T) (zero : T) (nr ns pn : Nat) (wtr wts inp : List T) : Option (List T) :=
  (mxm step zero nr inp ns wts pn).bind fun slice => (List.range pn).mapM fun i => dotLoop step (wtr.drop (i * nr)) (slice.drop (i * nr)) nr zero

/-- findpts_el_3.c:1311-1316: the values of `findpts_el_eval_3` for `pn` points, after the weights have been computed -/
def eval3 (step : T → T → T → T) (mul : T → T → T) (zero : T) (nr ns nt pn : Nat) (wtrs wtt inp : List T) : Option (List T) :=
  (mxm step zero (nr * ns) inp nt wtt pn).bind fun slice => (List.range pn).mapM fun i =>
    i2 step mul zero (wtrs.drop (i * (nr + ns))) nr (wtrs.drop (i * (nr + ns) + nr)) ns (slice.drop (i * (nr * ns)))

end Gslib.TensorFl
