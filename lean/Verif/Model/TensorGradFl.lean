import Verif.Model.TensorFl

/-!
# Interpolation with gradient in floating point arithmetic (tensor.h)

As `Model/TensorFl`. Default build (GSLIB_USE_NAIVE_BLAS).
-/

namespace Gslib.TensorFl
variable {T : Type}

/-- tensor.c:25-35 `tensor_mxv`: the `ny` values stored through `y` (zeroed first) -/
def mxv (step : T → T → T → T) (zero : T) (ny : Nat) (A x : List T) (nx : Nat) : Option (List T) := mxmCol step ny nx (List.replicate ny zero) A x

/-- tensor.h:128-134 `tensor_ig1`: (value, gradient) -/
def ig1 (step : T → T → T → T) (zero : T) (wtr : List T) (nr : Nat) (u : List T) : Option (T × T) :=
  (dotLoop step (wtr.drop nr) u nr zero).bind fun g => (dotLoop step wtr u nr zero).map fun v => (v, g)

/-- tensor.h:137-146 `tensor_ig2`: (value, gradient) -/
def ig2 (step : T → T → T → T) (zero : T) (wtr : List T) (nr : Nat) (wts : List T) (ns : Nat) (u : List T) : Option (T × T × T) :=
  (mxm step zero nr u ns wts 2).bind fun w =>
  (dotLoop step (wtr.drop nr) w nr zero).bind fun g0 =>
  (dotLoop step wtr (w.drop nr) nr zero).bind fun g1 =>
  (dotLoop step wtr w nr zero).map fun v => (v, g0, g1)

/-- tensor.h:149-164 `tensor_ig3`: (value, gradient) -/
def ig3 (step : T → T → T → T) (zero : T) (wtr : List T) (nr : Nat) (wts : List T) (ns : Nat) (wtt : List T) (nt : Nat) (u : List T) : Option (T × T × T × T) :=
  (mxm step zero (nr * ns) u nt wtt 2).bind fun a =>
  (mxm step zero nr a ns wts 2).bind fun b =>
  (mxv step zero nr (a.drop (nr * ns)) wts ns).bind fun c =>
  (dotLoop step b (wtr.drop nr) nr zero).bind fun g0 =>
  (dotLoop step (b.drop nr) wtr nr zero).bind fun g1 =>
  (dotLoop step c wtr nr zero).bind fun g2 =>
  (dotLoop step b wtr nr zero).map fun v => (v, g0, g1, g2)

end Gslib.TensorFl
