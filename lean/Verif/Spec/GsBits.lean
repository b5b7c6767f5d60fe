import Verif.Spec.GsNb
import Verif.Spec.Combine
import Verif.Spec.Schedules

/-!
# Specification: nonblocking gather-scatter gives the same bits as the blocking operation
-/

namespace Gslib.Spec
open Gslib Gslib.Mpi Gslib.Gs

variable {T : Type}

/-- on the data `v` of the processes the blocking operation (gs, gs_vec or gs_many) with handles `h` gives the data `r`, under every schedule and whatever is in the buffers -/
def GsReturns (D : Dom T) (np : Nat) (h : Nat → GsData) (a : GsArgs) (v r : Nat → UserData T) : Prop :=
  match a.mode with
  | .plain => ∀ s2 : Nat → GsSt (List T) T, (∀ q, q < np → v q = .one (s2 q).u) → AllSchedules (gsOp (plainKernels D a.op) D a.op np a.t h) np s2 fun s3 => ∀ q, q < np → r q = .one (s3 q).u
  | .vec vn => ∀ s2 : Nat → GsSt (List T) T, (∀ q, q < np → v q = .one (s2 q).u) → AllSchedules (gsOp (vecKernels D a.op vn) D a.op np a.t h) np s2 fun s3 => ∀ q, q < np → r q = .one (s3 q).u
  | .many vn => ∀ s2 : Nat → GsSt (List (List T)) T, (∀ q, q < np → v q = .many (s2 q).u) → AllSchedules (gsOp (manyKernels D a.op vn) D a.op np a.t h) np s2 fun s3 => ∀ q, q < np → r q = .many (s3 q).u

/-- each entry of `r` combines the values it has to, in some order (compare `gsEffect`) -/
def GsMayReturn (D : Dom T) (np : Nat) (ids : Nat → List Int) (a : GsArgs) (v : Nat → UserData T) (q : Nat) (r : UserData T) : Prop :=
  match a.mode, r with
  | .plain, .one x => GsCombines (D.doOp a.op) (D.identity a.op) a.t np ids (fun p => arrayOf (v p)) q x
  | .vec vn, .one x => x.length = (ids q).length * vn ∧ ∀ k, k < vn → GsCombines (D.doOp a.op) (D.identity a.op) a.t np ids (fun p => column vn k (arrayOf (v p))) q (column vn k x)
  | .many vn, .many xs => List.Forall₂ (fun k x => GsCombines (D.doOp a.op) (D.identity a.op) a.t np ids (fun p => arrayNo k (v p)) q x) (List.range vn) xs
  | _, _ => False

/-- the arrays have the sizes the operation needs -/
def Fits (ids : List Int) (m : Mode) (x : UserData T) : Prop := DataOk (fun _ => True) ids m x

end Gslib.Spec
