import Verif.Model.ElGroup2
import Verif.Spec.Newton2
import Verif.Spec.Tensor
import Mathlib.LinearAlgebra.Lagrange
import Mathlib.Algebra.Polynomial.Derivative

/-!
# Specification of the 2D element kernels: the tensor Lagrange interpolant of the element
-/

namespace Gslib.Spec
open Gslib.El Polynomial

variable {K : Type} [Field K] [LinearOrder K]

/-- the `k`-th derivative, at `x`, of the `i`-th Lagrange polynomial of the nodes `z 0 .. z (n-1)` -/
noncomputable def lagD (n : Nat) (z : Nat → K) (k i : Nat) (x : K) : K := (derivative^[k] (Lagrange.basis (Finset.range n) z i)).eval x

/-- a direction of an element after `findpts_el_setup`: `n ≥ 2` nodes `z` from -1 to 1 without repetition; `lag m x` are the values at `x` of the Lagrange polynomials and of their first `m` derivatives;
`wtend` was set up -/
structure DirOk (n : Nat) (z : List K) (lag : Nat → K → List K) (wtend : List K) : Prop where
  two : 2 ≤ n
  len : z.length = n
  inj : ∀ i, i < n → ∀ j, j < n → ent z i = ent z j → i = j
  first : ent z 0 = -1
  last : ent z (n - 1) = 1
  range : ∀ i, i < n → -1 ≤ ent z i ∧ ent z i ≤ 1
  lagLen : ∀ m x, m ≤ 2 → (lag m x).length = (m + 1) * n
  lagVal : ∀ m x, m ≤ 2 → ∀ k, k ≤ m → ∀ i, i < n → ent (lag m x) (k * n + i) = lagD n (ent z) k i x
  wtend : ∃ w, w.length = 6 * n ∧ wtendSetup n lag w = some wtend

/-- the tensor Lagrange interpolant of the values `u`, differentiated `k0` and `k1` times, at `r` -/
noncomputable def tensor2 (e : El2 K) (k0 k1 : Nat) (u : List K) (r : Fin 2 → K) : K :=
  interp2 (fun i => lagD (e.n 0) (ent (e.z 0)) k0 i (r 0)) (e.n 0) (fun j => lagD (e.n 1) (ent (e.z 1)) k1 j (r 1)) (e.n 1) u

/-- the map of the element: position, Jacobian, unmixed second derivatives -/
noncomputable def elMap2 (e : El2 K) : ElMap K where
  X r := ![tensor2 e 0 0 (e.x 0) r, tensor2 e 0 0 (e.x 1) r]
  J r := ![tensor2 e 1 0 (e.x 0) r, tensor2 e 0 1 (e.x 0) r, tensor2 e 1 0 (e.x 1) r, tensor2 e 0 1 (e.x 1) r]
  H r := ![tensor2 e 2 0 (e.x 0) r, tensor2 e 0 2 (e.x 0) r, tensor2 e 2 0 (e.x 1) r, tensor2 e 0 2 (e.x 1) r]

/-- an element after `findpts_el_setup_2` and `findpts_el_start_2` -/
structure El2Ok (e : El2 K) : Prop where
  dir : ∀ d, DirOk (e.n d) (e.z d) (e.lag d) (e.wtend d)
  x : ∀ c, (e.x c).length = e.n 0 * e.n 1

/-- the arrays `sides` and `work` have the sizes allocated by `findpts_el_setup_2` for groups of `nptMax` points -/
structure El2Mem (e : El2 K) (nptMax : Nat) (st : ElSt2 K) : Prop where
  sides : st.sides.length = 8 * e.n 1 + 4 * e.n 0
  work : st.work.length = workSize2 (e.n 0) (e.n 1) nptMax

end Gslib.Spec
