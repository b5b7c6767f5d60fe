import Verif.Model.ElGroup3
import Verif.Spec.ElGroup2
import Verif.Spec.Newton3

/-!
# Specification of the 3D element kernels: the tensor Lagrange interpolant of the element
-/

namespace Gslib.Spec
open Gslib.El

variable {K : Type} [Field K] [LinearOrder K]

/-- the tensor Lagrange interpolant of the values `u`, differentiated `k d` times in direction `d`, at `r` -/
noncomputable def tensor3 (e : El3 K) (k : Fin 3 → Nat) (u : List K) (r : Fin 3 → K) : K :=
  interp3 (fun i => lagD (e.n 0) (ent (e.z 0)) (k 0) i (r 0)) (e.n 0) (fun i => lagD (e.n 1) (ent (e.z 1)) (k 1) i (r 1)) (e.n 1) (fun i => lagD (e.n 2) (ent (e.z 2)) (k 2) i (r 2)) (e.n 2) u

/-- the map of the element: position, Jacobian, second derivatives in the order rr, rs, rt, ss, st, tt -/
noncomputable def elMap3 (e : El3 K) : ElMap3 K where
  X r c := tensor3 e ![0, 0, 0] (e.x c) r
  J r c := ![tensor3 e ![1, 0, 0] (e.x c) r, tensor3 e ![0, 1, 0] (e.x c) r, tensor3 e ![0, 0, 1] (e.x c) r]
  H r c := ![tensor3 e ![2, 0, 0] (e.x c) r, tensor3 e ![1, 1, 0] (e.x c) r, tensor3 e ![1, 0, 1] (e.x c) r, tensor3 e ![0, 2, 0] (e.x c) r, tensor3 e ![0, 1, 1] (e.x c) r, tensor3 e ![0, 0, 2] (e.x c) r]

/-- an element after `findpts_el_setup_3` and `findpts_el_start_3` -/
structure El3Ok (e : El3 K) : Prop where
  dir : ∀ d, DirOk (e.n d) (e.z d) (e.lag d) (e.wtend d)
  x : ∀ c, (e.x c).length = e.n 0 * e.n 1 * e.n 2

/-- the arrays `sides`, `work` and `pt` have the sizes allocated by `findpts_el_setup_3` for groups of `nptMax` points -/
structure El3Mem (e : El3 K) (nptMax : Nat) (st : ElSt3 K) : Prop where
  sides : st.sides.length = 12 * (e.n 1 * e.n 2) + 12 * (e.n 2 * e.n 0) + 6 * (e.n 0 * e.n 1) + 36 * (e.n 0 + e.n 1 + e.n 2)
  work : st.work.length = workSize3 (e.n 0) (e.n 1) (e.n 2) nptMax
  pt : st.pt.length = 8 * 30

end Gslib.Spec
